import Verif.Model.Pso
import Verif.Model.Nsga2

/-!
# Model of src/algorithms/pso_gen.cpp

The constructor (pso_gen.cpp 78-112), the topologies (644-796) and the formulas for velocities and positions (174-219,
241-327, 331-362) are those of src/algorithms/pso.cpp line by line: the definitions of `Verif.Model.Pso` are used. What
differs is modelled here: all velocities are changed first, then all positions, then all particles are evaluated, perhaps by a
batch evaluator; fitnesses are compared with `less_than_f` and `equal_to_f`; stochastic problems. The log and the screen output are
not modelled. What `m_V` is after an exception is not modelled.
-/

set_option autoImplicit false

namespace Verif.Alg

open Verif Prob

variable {K σ : Type} [Field K] [LinearOrder K]

/-- `less_than_f(a, b) || equal_to_f(a, b)`, pso_gen.cpp 446, 452, 616-617. -/
def leF (a b : Fl K) : Bool := Fl.lessThanF a b || Fl.equalToF a b

/-- Body of the loop, pso_gen.cpp 615-619; the state is `bnidx`. -/
def pgBetter (lbfit : List (List (Fl K))) (b q : Nat) : Outcome Nat := do
  let fq ← Outcome.get lbfit q
  let a ← Outcome.get fq 0
  let fb ← Outcome.get lbfit b
  let c ← Outcome.get fb 0
  pure (if leF a c then q else b)

/-- `particle__get_best_neighbor`, pso_gen.cpp 593-624, for a topology other than gbest. -/
def pgBest (nb : List (List Nat)) (lbX lbfit : List (List (Fl K))) (p : Nat) : Outcome (List (Fl K)) := do
  let l ← Outcome.get nb p
  let q ← Outcome.get l 0
  let q ← (l.drop 1).foldlM (pgBetter lbfit) q
  Outcome.get lbX q

/-- `best_neighb` of the particle `p`, pso_gen.cpp 238-239. -/
def pgLeader (A : Pso K) (c : PsoVars K) (p : Nat) : Outcome (List (Fl K)) :=
  if A.topology ≠ 1 ∧ A.variant ≠ 6 then pgBest c.nb c.lbX c.lbfit p else .ok c.bestX

/-- Body of the loop over the particles: the velocity, pso_gen.cpp 232-327. -/
def pgSteer (v : Env K σ) (P : AProb K) (A : Pso K) (c : PsoVars K) (p : Nat) : Run σ (PsoVars K) := do
  let b ← Run.lift (pgLeader A c p)
  let nbp ← Run.lift (Outcome.get c.nb p)
  let lbx ← Run.lift (Outcome.get c.lbX p)
  let x ← Run.lift (Outcome.get c.xs p)
  let w ← Run.lift (Outcome.get c.vel p)
  let w ← psoVel v P A nbp c.lbX lbx x b w
  let vel ← Run.lift (Outcome.set c.vel p w)
  pure { c with vel := vel, bestX := b }

/-- Body of the loop over the particles: the position, pso_gen.cpp 330-363. -/
def pgAdvance (op : Fl.Ops K) (P : AProb K) (A : Pso K) (c : PsoVars K) (p : Nat) : Outcome (PsoVars K) := do
  let x ← Outcome.get c.xs p
  let w ← Outcome.get c.vel p
  let xw ← (List.range P.info.nx).foldlM (psoMoveAt op P A) (x, w)
  let xs ← Outcome.set c.xs p xw.1
  let vel ← Outcome.set c.vel p xw.2
  pure { c with xs := xs, vel := vel }

/-- Body of the loop, pso_gen.cpp 434-437. -/
def pgEval (P : AProb K) (acc : List (List (Fl K))) (x : List (Fl K)) : Run (St K σ) (List (List (Fl K))) := do
  let f ← eval P x
  pure (acc ++ [f])

/-- Body of the loop for a stochastic problem, pso_gen.cpp 400-405: `fit` and `lbfit` so far. -/
def pgEvalTwo (P : AProb K) (c : PsoVars K) (acc : List (List (Fl K)) × List (List (Fl K))) (p : Nat) :
    Run (St K σ) (List (List (Fl K)) × List (List (Fl K))) := do
  let x ← Run.lift (Outcome.get c.xs p)
  let f ← eval P x
  let y ← Run.lift (Outcome.get c.lbX p)
  let g ← eval P y
  pure (acc.1 ++ [f], acc.2 ++ [g])

/-- Body of the loop, pso_gen.cpp 391-396, 410-415; the state is `best_fit` and `best_neighb`. -/
def pgLeadStep (xs fit : List (List (Fl K))) (b : List (Fl K) × List (Fl K)) (p : Nat) : Outcome (List (Fl K) × List (Fl K)) := do
  let f ← Outcome.get fit p
  let a ← Outcome.get f 0
  let o ← Outcome.get b.1 0
  if Fl.lessThanF a o then do
    let x ← Outcome.get xs p
    pure (f, x)
  else pure b

/-- `best_fit` and `best_neighb` for a stochastic problem, pso_gen.cpp 388-396, 407-415. -/
def pgLead (xs fit : List (List (Fl K))) (n : Nat) : Outcome (List (Fl K) × List (Fl K)) := do
  let f ← Outcome.get fit 0
  let x ← Outcome.get xs 0
  (List.range' 1 (n - 1)).foldlM (pgLeadStep xs fit) (f, x)

/-- The fitnesses of the new and of the best positions under a new seed, pso_gen.cpp 369-405. `set_seed` changes what the
fitness function returns from now on: `P.fit` depends on the calls made so far, so it stands for the functions of all the
seeds drawn. -/
def pgFitTwo (P : AProb K) (bfe : Option (Batch K)) (n : Nat) (c : PsoVars K) : Run (St K σ) (List (List (Fl K)) × List (List (Fl K))) :=
  match bfe with
  | some b => do
    let fit ← evalBatch P b c.xs
    let old ← evalBatch P b c.lbX
    pure (fit, old)
  | none => (List.range n).foldlM (pgEvalTwo P c) ([], [])

/-- The fitnesses of the new positions, pso_gen.cpp 418-438. -/
def pgFit (P : AProb K) (bfe : Option (Batch K)) (c : PsoVars K) : Run (St K σ) (List (List (Fl K))) :=
  match bfe with
  | some b => evalBatch P b c.xs
  | none => c.xs.foldlM (pgEval P) []

/-- The evaluations of a generation, pso_gen.cpp 365-440: `fit` and the other variables. -/
def pgEvals (v : Env K σ) (P : AProb K) (bfe : Option (Batch K)) (n : Nat) (c : PsoVars K) :
    Run (St K σ) (List (List (Fl K)) × PsoVars K) :=
  if P.info.stochastic then do
    let _ ← onRng (v.g.drawNat 0 (2 ^ 32 - 1))
    let fg ← pgFitTwo P bfe n c
    let b ← Run.lift (pgLead c.xs fg.1 n)
    pure (fg.1, { c with lbfit := fg.2, bestX := b.2, bestF := b.1 })
  else do
    let fit ← pgFit P bfe c
    pure (fit, c)

/-- `best_neighb` and `best_fit`, pso_gen.cpp 451-457; `a` is `fit[p][0]`. -/
def pgKeepBest (A : Pso K) (c : PsoVars K) (x f : List (Fl K)) (a : Fl K) : Outcome (PsoVars K) :=
  if A.topology = 1 ∨ A.topology = 4 then do
    let o ← Outcome.get c.bestF 0
    if leF a o then pure { c with bestX := x, bestF := f, improved := true } else pure c
  else pure c

/-- Body of the loop, pso_gen.cpp 445-459. -/
def pgKeep (A : Pso K) (fit : List (List (Fl K))) (c : PsoVars K) (p : Nat) : Outcome (PsoVars K) := do
  let f ← Outcome.get fit p
  let a ← Outcome.get f 0
  let old ← Outcome.get c.lbfit p
  let o ← Outcome.get old 0
  if leF a o then do
    let lbfit ← Outcome.set c.lbfit p f
    let x ← Outcome.get c.xs p
    let lbX ← Outcome.set c.lbX p x
    pgKeepBest A { c with lbfit := lbfit, lbX := lbX } x f a
  else pure c

/-- Body of the main loop, pso_gen.cpp 229-519. -/
def pgGen (v : Env K σ) (P : AProb K) (A : Pso K) (bfe : Option (Batch K)) (n : Nat) (_ : Nat) (c : PsoVars K) :
    Run (St K σ) (PsoVars K × Bool) := do
  let c ← onRng ((List.range n).foldlM (pgSteer v P A) c)
  let c ← Run.lift ((List.range n).foldlM (pgAdvance v.op P A) c)
  let fc ← pgEvals v P bfe n c
  let c ← Run.lift ((List.range n).foldlM (pgKeep A fc.1) { fc.2 with improved := false })
  let c ← psoRewire v A n c
  pure (c, false)

/-- `pso_gen::evolve`, pso_gen.cpp 120-530. `V` is `m_V`; the result is the new `m_V`. -/
def psoGenEvolve (v : Env K σ) (P : AProb K) (A : Pso K) (bfe : Option (Batch K)) (fuel : Nat) (V : List (List (Fl K))) :
    Run (St K σ) (List (List (Fl K))) :=
  if P.info.nc ≠ 0 then Run.throw .invalidArgument
  else if P.info.nf ≠ 1 then Run.throw .invalidArgument
  else do
    let s ← Run.get
    if s.pop.id.length = 0 then Run.throw .invalidArgument
    else do
      let V ← onRng (psoInitV v P A s.pop.id.length V)
      let t ← psoTopology v P A s.pop.id.length
      let c ← genLoop (pgGen v P A bfe s.pop.id.length) A.gens fuel 1 ⟨s.pop.x, V, s.pop.x, s.pop.f, t.1, t.2.1, t.2.2, false⟩
      (List.range s.pop.id.length).foldlM (psoCopyBack v P c) ()
      pure c.vel

end Verif.Alg
