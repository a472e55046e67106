import Verif.Model.Algo

/-!
# Model of src/algorithms/compass_search.cpp
-/

set_option autoImplicit false

namespace Verif.Alg

open Verif Prob

variable {K σ : Type} [Field K] [LinearOrder K]

/-- The parameters of `compass_search`. `maxFevals` is an `unsigned` (32 bits). -/
structure Compass (K : Type) where
  maxFevals : Nat
  start : Fl K
  stop : Fl K
  red : Fl K
  select : Policy
  replace : Policy

/-- The constructor, compass_search.cpp 48-65. A zero or negative `stop_range` is accepted. -/
def compassCtor (one zero : Fl K) (maxFevals : Nat) (start stop red : Fl K) : Outcome (Compass K) :=
  if Fl.gt start one || Fl.le start zero || start.isNan then .throws .invalidArgument
  else if Fl.gt stop one || Fl.ge stop start || stop.isNan then .throws .invalidArgument
  else if Fl.ge red one || Fl.le red zero || red.isNan then .throws .invalidArgument
  else .ok ⟨maxFevals, start, stop, red, .best, .best⟩

/-- The local variables of `evolve`, compass_search.cpp 115-121. -/
structure CVars (K : Type) where
  x : List (Fl K)
  f : List (Fl K)
  flag : Bool
  fevals : Nat
  range : Fl K

/-- Evaluation of a trial point and acceptance, compass_search.cpp 132-139 and 146-153. -/
def compassTrial (v : Env K σ) (P : AProb K) (xt : List (Fl K)) (c : CVars K) : Run (St K σ) (CVars K) := do
  let f ← eval P xt
  let s ← Run.get
  let better ← Run.lift (Con.compareFc v.sq f c.f P.info.nec s.pop.tol)
  pure (if better then { c with x := xt, f := f, flag := true, fevals := incU c.fevals }
        else { c with fevals := incU c.fevals })

/-- Body of the loop over the coordinates, compass_search.cpp 125-154. Once a point was accepted (`break`) nothing more
is done: here the remaining iterations are passed over, `flag` being true. -/
def compassCoord (v : Env K σ) (P : AProb K) (c : CVars K) (i : Nat) : Run (St K σ) (CVars K) :=
  if c.flag then pure c
  else do
    let xi ← Run.lift (Outcome.get c.x i)
    let l ← Run.lift (Outcome.get P.lb i)
    let u ← Run.lift (Outcome.get P.ub i)
    let up := v.op.add xi (v.op.mul c.range (v.op.sub u l))
    let xt ← Run.lift (Outcome.set c.x i (if Fl.gt up u then u else up))
    let c ← compassTrial v P xt c
    if c.flag then pure c
    else do
      let down := v.op.sub xi (v.op.mul c.range (v.op.sub u l))
      let xt ← Run.lift (Outcome.set xt i (if Fl.lt down l then l else down))
      compassTrial v P xt c

/-- `if (!flag) newrange *= m_reduction_coeff`, compass_search.cpp 155-157. -/
def compassShrink (v : Env K σ) (A : Compass K) (c : CVars K) : CVars K :=
  if c.flag then c else { c with range := v.op.mul c.range A.red }

/-- The main loop, compass_search.cpp 123-181; the argument is the fuel. -/
def compassLoop (v : Env K σ) (P : AProb K) (A : Compass K) : Nat → CVars K → Run (St K σ) (CVars K)
  | 0, _ => Run.lift .nofuel
  | n + 1, c =>
    if Fl.gt c.range A.stop && decide (c.fevals ≤ A.maxFevals) then do
      let c ← (List.range P.info.nx).foldlM (compassCoord v P) { c with flag := false }
      compassLoop v P A n (compassShrink v A c)
    else pure c

/-- `compass_search::evolve`, compass_search.cpp 76-194. -/
def compassEvolve (v : Env K σ) (P : AProb K) (A : Compass K) (fuel : Nat) : Run (St K σ) Unit :=
  if P.info.nobj ≠ 1 then Run.throw .invalidArgument
  else if P.info.stochastic then Run.throw .invalidArgument
  else do
    let s ← Run.get
    if s.pop.id.length = 0 then Run.throw .invalidArgument
    else if A.maxFevals = 0 then pure ()
    else do
      let xf ← selectIndividual v P A.select
      let c ← compassLoop v P A fuel ⟨xf.1, xf.2, false, 0, A.start⟩
      replaceIndividual v P A.replace c.x c.f

end Verif.Alg
