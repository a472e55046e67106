import Verif.Props.Pso
import Verif.Proof.Nsga2
import Verif.Model.PsoGen

/-!
# What a generation of pso_gen is to do
-/

set_option autoImplicit false

namespace Verif.Props

open Verif Run Prob Pop Alg Rnd

variable {K σ : Type} [Field K] [LinearOrder K]

/-- `f` is not worse than `g`; a NaN is worse than everything else -/
def NoWorse (f g : List (Fl K)) : Prop := ∃ a b : Fl K, f[0]? = some a ∧ g[0]? = some b ∧ a ≤ b

/-- A swarm with its leader, which attracts everybody in the topology gbest. -/
structure Flock (K : Type) where
  xs : List (List (Fl K))
  vel : List (List (Fl K))
  bestX : List (List (Fl K))
  bestF : List (List (Fl K))
  nb : List (List Nat)
  lead : List (Fl K)
  leadF : List (Fl K)
  evs : List (ECall K)

/-- `g` is the own best position of one of the neighbours, and no neighbour has a better one -/
def BestNear (a : Flock K) (nbp : List Nat) (g : List (Fl K)) : Prop :=
  ∃ (q : Nat) (f : List (Fl K)), q ∈ nbp ∧ a.bestX[q]? = some g ∧ a.bestF[q]? = some f ∧
    ∀ (q' : Nat) (f' : List (Fl K)), q' ∈ nbp → a.bestF[q']? = some f' → NoWorse f f'

/-- The new velocity `u` of particle `p`, by the formula of the variant. -/
def Steered (v : Env K σ) (P : AProb K) (A : Pso K) (a : Flock K) (p : Nat) (u : List (Fl K)) : Prop :=
  ∃ (nbp : List Nat) (x w l g : List (Fl K)), a.nb[p]? = some nbp ∧ a.xs[p]? = some x ∧ a.vel[p]? = some w ∧
    a.bestX[p]? = some l ∧
    (A.variant ≠ 6 → (A.topology = 1 → g = a.lead) ∧ (A.topology ≠ 1 → BestNear a nbp g) ∧ Pulled v.op A P.info.nx l x g w u) ∧
    (A.variant = 6 → PulledByAll v A P.info.nx nbp a.bestX x w u)

/-- The new position `y` and velocity `w` of particle `p`: both depend on the swarm before the generation only. -/
def Flew (v : Env K σ) (P : AProb K) (A : Pso K) (a : Flock K) (p : Nat) (y w : List (Fl K)) : Prop :=
  ∃ x u : List (Fl K), a.xs[p]? = some x ∧ Steered v P A a p u ∧ Flown v.op P A x u y w

/-- The evaluations of a generation: the new positions get the fitnesses `fs`, the own bests `os`. On a stochastic problem the
own bests are evaluated again, otherwise they keep their fitnesses. -/
def Assessed (P : AProb K) (batch : Bool) (a b : Flock K) (fs os : List (List (Fl K))) : Prop :=
  (P.info.stochastic = false → os = a.bestF ∧ b.evs = a.evs ++ asCalls (b.xs.zip fs)) ∧
  (P.info.stochastic = true → batch = true → b.evs = a.evs ++ (asCalls (b.xs.zip fs) ++ asCalls (a.bestX.zip os))) ∧
  (P.info.stochastic = true → batch = false →
    b.evs = a.evs ++ ((b.xs.zip fs).zip (a.bestX.zip os)).flatMap (fun q => asCalls [q.1, q.2]))

/-- The own best of each particle is the new position, unless the old best is better. -/
def Remembered (a b : Flock K) (fs os : List (List (Fl K))) : Prop :=
  ∀ (p : Nat) (y f l o : List (Fl K)), b.xs[p]? = some y → fs[p]? = some f → a.bestX[p]? = some l → os[p]? = some o →
    (NoWorse f o ∧ b.bestX[p]? = some y ∧ b.bestF[p]? = some f) ∨ (¬ NoWorse f o ∧ b.bestX[p]? = some l ∧ b.bestF[p]? = some o)

/-- The leader is the best of the own bests (`Clean`: given that there was no NaN in the population). On a stochastic problem it is
the best of the positions. -/
def Led (Clean : Prop) (P : AProb K) (A : Pso K) (b : Flock K) (fs : List (List (Fl K))) : Prop :=
  (P.info.stochastic = false → A.topology = 1 → (∃ q : Nat, b.bestX[q]? = some b.lead ∧ b.bestF[q]? = some b.leadF) ∧
    (Clean → ∀ f ∈ b.bestF, NoWorse b.leadF f)) ∧
  (P.info.stochastic = true → A.topology = 1 → (∃ q : Nat, b.xs[q]? = some b.lead ∧ fs[q]? = some b.leadF) ∧
    ∀ f ∈ fs, NoWorse b.leadF f)

/-- The neighbours are kept, but in the topology 4 chosen anew if there was no progress: if no new position is as good as all
own bests. On a stochastic problem: if no position that is best among the new ones is as good as the own best. -/
def Rewired (Clean : Prop) (P : AProb K) (A : Pso K) (n : Nat) (a b : Flock K) (fs os : List (List (Fl K))) : Prop :=
  (A.topology ≠ 4 → b.nb = a.nb) ∧ (A.topology = 4 → b.nb = a.nb ∨ RandomGraph n A.param b.nb) ∧
  (P.info.stochastic = false → Clean → A.topology = 4 →
    (b.nb = a.nb ∧ ∃ f ∈ fs, ∀ g ∈ a.bestF, NoWorse f g) ∨ (RandomGraph n A.param b.nb ∧ ∀ f ∈ fs, ∃ g ∈ a.bestF, ¬ NoWorse f g)) ∧
  (P.info.stochastic = true → A.topology = 4 →
    (b.nb = a.nb ∧ ∃ (p : Nat) (f o : List (Fl K)), fs[p]? = some f ∧ os[p]? = some o ∧ NoWorse f o ∧ ∀ g ∈ fs, NoWorse f g) ∨
    (RandomGraph n A.param b.nb ∧ ∀ (p : Nat) (f o : List (Fl K)), fs[p]? = some f → os[p]? = some o → (∀ g ∈ fs, NoWorse f g) → ¬ NoWorse f o))

/-- A generation of `n` particles -/
def PgGeneration (Clean : Prop) (v : Env K σ) (P : AProb K) (A : Pso K) (batch : Bool) (n : Nat) (a b : Flock K) : Prop :=
  b.xs.length = n ∧ b.vel.length = n ∧ b.bestX.length = n ∧ b.bestF.length = n ∧ ∃ fs os : List (List (Fl K)), fs.length = n ∧ os.length = n ∧
    (∀ f ∈ fs, f.length = 1) ∧ (∀ f ∈ os, f.length = 1) ∧
    (∀ (p : Nat) (y w : List (Fl K)), b.xs[p]? = some y → b.vel[p]? = some w → Flew v P A a p y w) ∧
    Assessed P batch a b fs os ∧ Remembered a b fs os ∧ Led Clean P A b fs ∧ Rewired Clean P A n a b fs os

/-- The leader at the beginning: the best of the population -/
def FirstLead (Clean : Prop) (A : Pso K) (b : Flock K) : Prop :=
  A.topology = 1 → (∃ q : Nat, b.bestX[q]? = some b.lead ∧ b.bestF[q]? = some b.leadF) ∧ (Clean → ∀ f ∈ b.bestF, NoWorse b.leadF f)

/-- no NaN among the fitnesses of the population -/
def CleanPop (s : St K σ) : Prop := ∀ f ∈ s.pop.f, Fl.nan ∉ f

/-- What a run of pso_gen has done. `V`: the velocities kept from an earlier run, `V'`: those kept for a later one. -/
structure PgDone (v : Env K σ) (P : AProb K) (A : Pso K) (batch : Bool) (V : List (List (Fl K))) (s : St K σ) (V' : List (List (Fl K)))
    (s' : St K σ) : Prop where
  inv : Inv P.info s'.pop
  id : s'.pop.id = s.pop.id
  vel : Vecs s.pop.id.length P.info.nx V'
  run : ∃ (V0 : List (List (Fl K))) (nb0 : List (List Nat)) (l0 f0 : List (Fl K)) (b : Flock K),
    (A.memory = true → V.length = s.pop.id.length → V0 = V) ∧
    (A.memory = false ∨ V.length ≠ s.pop.id.length → ∀ w ∈ V0, ∀ d, d < P.info.nx →
      v.op.mul (.fin (-1)) (speed v.op P A d) ≤ comp w d ∧ comp w d ≤ speed v.op P A d) ∧
    StartGraph A s.pop.id.length nb0 ∧ FirstLead (CleanPop s) A ⟨s.pop.x, V0, s.pop.x, s.pop.f, nb0, l0, f0, s.evs⟩ ∧
    Steps (PgGeneration (CleanPop s) v P A batch s.pop.id.length) A.gens ⟨s.pop.x, V0, s.pop.x, s.pop.f, nb0, l0, f0, s.evs⟩ b ∧
    b.vel = V' ∧ b.bestX = s'.pop.x ∧ b.bestF = s'.pop.f ∧ b.evs = s'.evs
  evals : ∃ new, s'.evs = s.evs ++ new ∧ (∀ p ∈ new, InBox P.lb P.ub 0 p.1) ∧ (∀ p ∈ new, ∃ h, p.2 = P.fit h p.1) ∧
    new.length = A.gens * s.pop.id.length * (if P.info.stochastic = true then 2 else 1)

end Verif.Props
