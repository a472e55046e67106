import Verif.Model.Algo
import Verif.Model.Random

/-!
# Model of src/algorithms/mbh.cpp
-/

set_option autoImplicit false

namespace Verif.Alg

open Verif Prob

variable {K σ : Type} [Field K] [LinearOrder K]

/-- The parameters of `mbh`, apart from the inner algorithm; `stop` is an `unsigned`. -/
structure Mbh (K : Type) where
  stop : Nat
  perturb : List (Fl K)

/-- `mbh(T &&a, unsigned stop, double perturb, unsigned)`, include/pagmo/algorithms/mbh.hpp 123-127 with
`scalar_ctor_impl`, mbh.cpp 73-79. -/
def mbhScalar (stop : Nat) (perturb : Fl K) : Outcome (Mbh K) :=
  if perturb.isNan || Fl.gt perturb (.fin 1) || Fl.le perturb (.fin 0) then .throws .invalidArgument
  else .ok ⟨stop, [perturb]⟩

/-- `mbh(T &&a, unsigned stop, vector_double perturb, unsigned)`, mbh.hpp 152-156 with `vector_ctor_impl`, mbh.cpp
81-88. -/
def mbhVector (stop : Nat) (perturb : List (Fl K)) : Outcome (Mbh K) :=
  if perturb.all (fun a => !a.isNan && Fl.gt a (.fin 0) && Fl.le a (.fin 1)) then .ok ⟨stop, perturb⟩
  else .throws .invalidArgument

/-- The perturbation vector, mbh.cpp 134-139: a vector of size one is filled up with its first entry (nothing is added
for `dim = 0`). -/
def mbhPerturbVec (perturb : List (Fl K)) (dim : Nat) : List (Fl K) :=
  if perturb.length = 1 then perturb ++ List.replicate (dim - 1) (perturb.getD 0 .nan) else perturb

/-- One component of the perturbed point, mbh.cpp 159-163. -/
def mbhGene (v : Env K σ) (P : AProb K) (pv x tmp : List (Fl K)) (k : Nat) : Run σ (List (Fl K)) := do
  let xk ← Run.lift (Outcome.get x k)
  let p ← Run.lift (Outcome.get pv k)
  let l ← Run.lift (Outcome.get P.lb k)
  let u ← Run.lift (Outcome.get P.ub k)
  let d := v.op.mul p (v.op.sub u l)
  let w ← Rnd.uniformRealFromRange v.g v.op (Fl.stdMax (v.op.sub xk d) l) (Fl.stdMin (v.op.add xk d) u)
  Run.lift (Outcome.set tmp k w)

/-- Perturbation of individual `j`, mbh.cpp 157-165; `set_x` evaluates the fitness (src/population.cpp 539-542). -/
def mbhPerturbOne (v : Env K σ) (P : AProb K) (pv : List (Fl K)) (_ : Unit) (j : Nat) : Run (St K σ) Unit := do
  let s ← Run.get
  let x ← Run.lift (Outcome.get s.pop.x j)
  let tmp ← onRng ((List.range P.info.nx).foldlM (mbhGene v P pv x) (List.replicate P.info.nx (.fin 0)))
  let f ← eval P tmp
  onPop (Pop.setXF v.sq P.info j tmp f)

/-- `pop.set_xf(j, pop_old.get_x()[j], pop_old.get_f()[j])`, mbh.cpp 173-175. -/
def mbhResetOne (v : Env K σ) (P : AProb K) (old : Pop.State K) (_ : Unit) (j : Nat) : Run (St K σ) Unit := do
  let x ← Run.lift (Outcome.get old.x j)
  let f ← Run.lift (Outcome.get old.f j)
  onPop (Pop.setXF v.sq P.info j x f)

/-- `pop.get_f()[pop.best_idx()]` -/
def bestF (v : Env K σ) (P : AProb K) (p : Pop.State K) : Outcome (List (Fl K)) := do
  let i ← Pop.bestIdx v.srt v.sq P.info p.f p.tol
  Outcome.get p.f i

/-- The counter after step 4, mbh.cpp 170-176: reset if the new best is better, otherwise the population is put back. -/
def mbhJudge (v : Env K σ) (P : AProb K) (NP : Nat) (old : Pop.State K) (i : Nat) (better : Bool) : Run (St K σ) Nat :=
  if better then pure 0
  else do
    (List.range NP).foldlM (mbhResetOne v P old) ()
    pure i

/-- Body of the main loop, mbh.cpp 151-200. `inner` is `pop = m_algorithm.evolve(pop)`: any code working on the state
(the population it returns, the calls of the fitness function it makes; its own engine is part of `σ`). It is assumed
that the population returned has the same problem. -/
def mbhRound (v : Env K σ) (P : AProb K) (inner : Run (St K σ) Unit) (pv : List (Fl K)) (NP i : Nat) : Run (St K σ) Nat := do
  let s0 ← Run.get
  (List.range NP).foldlM (mbhPerturbOne v P pv) ()
  inner
  let s ← Run.get
  let f ← Run.lift (bestF v P s.pop)
  let g ← Run.lift (bestF v P s0.pop)
  let better ← Run.lift (Con.compareFc v.sq f g P.info.nec s.pop.tol)
  mbhJudge v P NP s0.pop (incU i) better

/-- `while (i < m_stop)`, mbh.cpp 150-200; the first number is the fuel. -/
def mbhLoop (v : Env K σ) (P : AProb K) (inner : Run (St K σ) Unit) (stop : Nat) (pv : List (Fl K)) (NP : Nat) :
    Nat → Nat → Run (St K σ) Unit
  | 0, _ => Run.lift .nofuel
  | n + 1, i =>
    if i < stop then do
      let i' ← mbhRound v P inner pv NP i
      mbhLoop v P inner stop pv NP n i'
    else pure ()

/-- `mbh::evolve`, mbh.cpp 102-203, without the log. -/
def mbhEvolve (v : Env K σ) (P : AProb K) (inner : Run (St K σ) Unit) (A : Mbh K) (fuel : Nat) : Run (St K σ) Unit :=
  if P.info.nobj ≠ 1 then Run.throw .invalidArgument
  else if P.info.stochastic then Run.throw .invalidArgument
  else if A.stop = 0 then pure ()
  else if (mbhPerturbVec A.perturb P.info.nx).length ≠ P.info.nx then Run.throw .invalidArgument
  else do
    let s ← Run.get
    mbhLoop v P inner A.stop (mbhPerturbVec A.perturb P.info.nx) s.pop.id.length fuel 0

end Verif.Alg
