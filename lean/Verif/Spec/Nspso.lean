import Verif.Props.Pso
import Verif.Props.MoeadGen
import Verif.Model.Nspso

/-!
# What a generation of nspso is to do
-/

set_option autoImplicit false

namespace Verif.Props

open Verif Run Prob Pop Alg Rnd MO Spec

variable {K σ : Type} [Field K] [LinearOrder K]

/-- Nobody dominates the individual `i`. -/
def Unbeaten (fs : List (List (Fl K))) (i : Nat) : Prop := i < fs.length ∧ ∀ j, ¬ DomIdx fs j i

/-- `L` are different individuals out of `n`, in the order `R`, and all others come after them. -/
structure TopOf (R : Nat → Nat → Prop) (n : Nat) (L : List Nat) : Prop where
  nodup : L.Nodup
  lt : ∀ a ∈ L, a < n
  sorted : L.Pairwise R
  rest : ∀ a ∈ L, ∀ b : Nat, b < n → b ∉ L → R a b

/-- component `k` of the vector number `i` -/
abbrev entry (fs : List (List (Fl K))) (i k : Nat) : Fl K := comp (fs.getD i []) k

/-- How much the individual `i` is worse than `j` in the objective `k` (negative if it is better). -/
abbrev gap (op : Fl.Ops K) (fs : List (List (Fl K))) (i j k : Nat) : Fl K := op.sub (entry fs i k) (entry fs j k)

/-- The maxmin value of the individual `i`: the largest, over all others, of the smallest gap. -/
def IsMaxmin (op : Fl.Ops K) (fs : List (List (Fl K))) (M i : Nat) (m : Fl K) : Prop :=
  (∃ j : Nat, j < fs.length ∧ j ≠ i ∧ ∀ k : Nat, k < M → m ≤ gap op fs i j k) ∧
  ∀ j : Nat, j < fs.length → j ≠ i → ∃ k : Nat, k < M ∧ gap op fs i j k ≤ m

/-- `m` are the maxmin values (of finite fitnesses; of others nothing is said). -/
def MaxminVals (op : Fl.Ops K) (fs : List (List (Fl K))) (M : Nat) (m : List (Fl K)) : Prop :=
  m.length = fs.length ∧ ((∀ f ∈ fs, AllFin f) → ∀ i : Nat, i < fs.length → IsMaxmin op fs M i (comp m i))

/-- The candidates without regard to the order: the individuals that nobody dominates, or, if there is only one of them,
this one and one that it alone dominates. -/
def FrontOr2 (fs : List (List (Fl K))) (L : List Nat) : Prop :=
  (∀ i, i ∈ L ↔ Unbeaten fs i) ∨
  ∃ a b, L = [a, b] ∧ (∀ i, Unbeaten fs i ↔ i = a) ∧ b < fs.length ∧ ∀ j, DomIdx fs j b ↔ j = a

/-- the largest values of the objectives among the individuals that nobody dominates -/
def NadirOf (pts : List (List (Fl K))) (z : List (Fl K)) : Prop :=
  (∀ p ∈ pts, z.length = p.length) ∧
  ∀ (i : Nat) (m : Fl K), z[i]? = some m → (∃ j : Nat, Unbeaten pts j ∧ entry pts j i = m) ∧ ∀ j : Nat, Unbeaten pts j → entry pts j i ≤ m

/-- What is under the root for three objectives with the ranges `a`, `b`, `c` and `m` individuals. -/
def spread3 (v : MoEnv K σ) (a b c m : Fl K) : Fl K :=
  let o := v.op
  o.add (o.add (o.add (o.sub (o.sub (o.sub (o.add (o.add (o.add (o.add (o.add
    (o.mul (o.mul (o.mul (.fin 4) b) a) m) (o.mul (o.mul (o.mul (.fin 4) c) a) m)) (o.mul (o.mul (o.mul (.fin 4) b) c) m))
    (v.pw a (.fin 2))) (v.pw b (.fin 2))) (v.pw c (.fin 2)))
    (o.mul (o.mul (.fin 2) b) a)) (o.mul (o.mul (.fin 2) c) a)) (o.mul (o.mul (.fin 2) b) c)) a) b) c

/-- The radius of a niche for `m` individuals, with the nadir `z` and the ideal point `y`. -/
def NicheRadius (v : MoEnv K σ) (nobj m : Nat) (z y : List (Fl K)) (r : Fl K) : Prop :=
  let range (k : Nat) := v.op.sub (comp z k) (comp y k)
  (nobj = 2 → r = v.op.div (v.op.add (range 0) (range 1)) (v.op.sub (.fin (v.g.ofInt (max m 2 : Nat))) (.fin 1))) ∧
  (nobj = 3 → ∃ c : Fl K, (c = .fin (v.g.ofInt (m : Nat)) ∨ c = .fin 2) ∧ .fin (v.g.ofInt (m : Nat)) ≤ c ∧ .fin 2 ≤ c ∧
    r = v.op.div (v.sq (spread3 v (range 0) (range 1) (range 2) c)) (v.op.mul (.fin 2) (v.op.sub c (.fin 1)))) ∧
  (3 < nobj → r = v.op.div (v.pw ((List.range nobj).foldl (fun d k => v.op.mul d (range k)) (.fin 1)) (v.op.div (.fin 1) (.fin (v.g.ofInt nobj))))
    (.fin (v.g.ofInt m)))

/-- the distance of two points -/
def euclid (v : MoEnv K σ) (x y : List (Fl K)) : Fl K :=
  v.sq ((List.range x.length).foldl (fun s k => v.op.add s (v.pw (v.op.sub (comp x k) (comp y k)) (.fin 2))) v.op.zero)

/-- how many of the points with the indices `L` are nearer to the point `a` than `r` -/
def nicheCount (v : MoEnv K σ) (xs : List (List (Fl K))) (L : List Nat) (r : Fl K) (a : Nat) : Nat :=
  L.countP (fun b => Fl.lt (euclid v (xs.getD a []) (xs.getD b [])) r)

/-- The candidates for the leader, best first, of the individuals with the positions `xs` and the fitnesses `fs`. -/
structure Candidates (v : MoEnv K σ) (P : AProb K) (A : Nspso K) (fs xs : List (List (Fl K))) (L : List Nat) : Prop where
  two : 2 ≤ L.length
  nodup : L.Nodup
  lt : ∀ a ∈ L, a < fs.length
  front : A.mech ≠ "max min" → FrontOr2 fs L
  crowd : A.mech = "crowding distance" → TopOf (RankCrowdGE v.op v.srt fs) fs.length L
  niche : A.mech = "niche count" → (∀ a ∈ L, Unbeaten fs a) → ∃ z y r, NadirOf fs z ∧ IdealOf fs y ∧
    NicheRadius v P.info.nobj L.length z y r ∧ L.Pairwise (fun a b => nicheCount v xs L r a ≤ nicheCount v xs L r b)
  maxmin : A.mech = "max min" → ∃ m, MaxminVals v.op fs P.info.nobj m ∧ TopOf (fun a b => comp m a ≤ comp m b) fs.length L ∧
    (L.length = 2 ∨ ∀ a ∈ L, comp m a < .fin 0) ∧ ∀ b : Nat, b < fs.length → b ∉ L → ¬ comp m b < .fin 0

/-- The leader `q` of the particle `i` is another particle, out of the first `range` per cent of the candidates (and out of
the first two if these are fewer). -/
def LeaderFor (A : Nspso K) (L : List Nat) (i q : Nat) : Prop :=
  q ≠ i ∧ ∃ k : Nat, L[k]? = some q ∧ (k < 2 ∨ 100 * k < L.length * A.range)

/-- the largest velocity of component `d` -/
def topSpeed (op : Fl.Ops K) (P : AProb K) (A : Nspso K) (d : Nat) : Fl K := op.mul (op.sub (comp P.ub d) (comp P.lb d)) A.vcoeff

/-- From `x` with the velocity `w` to `y` with the velocity `w'`, attracted by `b` and `l`: the velocity is limited in every
component, and the point reached is moved to the bound it has passed, with the velocity zero. -/
def NspMoved (op : Fl.Ops K) (P : AProb K) (A : Nspso K) (w b x l y w' : List (Fl K)) : Prop :=
  y.length = P.info.nx ∧ w'.length = P.info.nx ∧ ∃ r1 r2 : K, (0 ≤ r1 ∧ r1 ≤ 1) ∧ (0 ≤ r2 ∧ r2 ≤ 1) ∧
  ∀ d, d < P.info.nx → ∃ u z : Fl K,
    u = op.add (op.add (op.mul A.omega (comp w d)) (op.mul (op.mul A.c1 (.fin r1)) (op.sub (comp b d) (comp x d))))
      (op.mul (op.mul A.c2 (.fin r2)) (op.sub (comp l d) (comp x d))) ∧
    z = max (op.mul (.fin (-1)) (topSpeed op P A d)) (min (topSpeed op P A d) u) ∧
    comp y d = max (comp P.lb d) (min (comp P.ub d) (op.add (comp x d) (op.mul A.chi z))) ∧
    comp w' d = if op.add (comp x d) (op.mul A.chi z) < comp P.lb d ∨ comp P.ub d < op.add (comp x d) (op.mul A.chi z) then .fin 0 else z

/-- A swarm: positions, fitnesses and velocities of the particles, the best points so far with their fitnesses, and the
calls of the fitness function so far. -/
structure NspSwarm (K : Type) where
  x : List (List (Fl K))
  f : List (List (Fl K))
  vel : List (List (Fl K))
  bestX : List (List (Fl K))
  bestF : List (List (Fl K))
  evs : List (ECall K)

/-- `sel` are the best `n` of the individuals with the fitnesses `fs`. -/
def BestN (v : MoEnv K σ) (P : AProb K) (A : Nspso K) (fs : List (List (Fl K))) (n : Nat) (sel : List Nat) : Prop :=
  sel.length = n ∧ (A.mech ≠ "max min" → TopOf (RankCrowdGE v.op v.srt fs) fs.length sel) ∧
  (A.mech = "max min" → ∃ m, MaxminVals v.op fs P.info.nobj m ∧ TopOf (fun a b => comp m a ≤ comp m b) fs.length sel)

/-- One generation: every particle moves, attracted by the best point with its number and by the best point with the number
of a leader; the points reached are evaluated, in order; of them and of the best points so far the best are kept. -/
def NspGeneration (v : MoEnv K σ) (P : AProb K) (A : Nspso K) (n : Nat) (a b : NspSwarm K) : Prop :=
  (∃ L, Candidates v P A a.f a.x L ∧ ∀ i : Nat, i < n → ∃ q, LeaderFor A L i q ∧
    NspMoved v.op P A (a.vel.getD i []) (a.bestX.getD i []) (a.x.getD i []) (a.bestX.getD q []) (b.x.getD i []) (b.vel.getD i [])) ∧
  b.x.length = n ∧ b.f.length = n ∧ b.vel.length = n ∧ b.evs = a.evs ++ asCalls (b.x.zip b.f) ∧
  ∃ sel, BestN v P A (b.f ++ a.bestF) n sel ∧ b.bestX = sel.map (fun i => (b.x ++ a.bestX).getD i []) ∧
    b.bestF = sel.map (fun i => (b.f ++ a.bestF).getD i [])

end Verif.Props
