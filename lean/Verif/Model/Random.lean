import Verif.Base.Rng
import Verif.Model.Problem

/-!
# Model of include/pagmo/utils/generic.hpp and src/utils/generic.cpp: random vectors and bound repair
-/

set_option autoImplicit false

namespace Verif.Rnd

open Verif

variable {K σ : Type} [Field K] [LinearOrder K]

/-- `uniform_real_from_range_checks<FiniteCheck, LbUbCheck, RangeCheck>`, include/pagmo/utils/generic.hpp 60-94. The
asserts of the disabled checks are not modelled (no code in release builds). A finite `delta` is never larger than the
largest double, so only `isfinite` is left of the third check. -/
def realChecks (finiteCheck lbUbCheck rangeCheck : Bool) (op : Fl.Ops K) (lb ub : Fl K) : Outcome Unit :=
  if finiteCheck && (!lb.isFinite || !ub.isFinite) then .throws .invalidArgument
  else if lbUbCheck && Fl.gt lb ub then .throws .invalidArgument
  else if rangeCheck && !(op.sub ub lb).isFinite then .throws .invalidArgument
  else .ok ()

/-- `uniform_real_from_range_impl`, include/pagmo/utils/generic.hpp 97-104. -/
def uniformReal (finiteCheck lbUbCheck rangeCheck : Bool) (g : Gen K σ) (op : Fl.Ops K) (lb ub : Fl K) :
    Run σ (Fl K) := do
  Run.lift (realChecks finiteCheck lbUbCheck rangeCheck op lb ub)
  if Fl.eq lb ub then pure lb else g.drawReal op lb ub

/-- `uniform_integral_from_range_checks<FiniteCheck, LbUbCheck, IntCheck>`, include/pagmo/utils/generic.hpp 109-142. -/
def intChecks [FloorRing K] (finiteCheck lbUbCheck intCheck : Bool) (lb ub : Fl K) : Outcome Unit :=
  if finiteCheck && (!lb.isFinite || !ub.isFinite) then .throws .invalidArgument
  else if lbUbCheck && Fl.gt lb ub then .throws .invalidArgument
  else if intCheck && (!(Fl.eq (Prob.trunc lb) lb) || !(Fl.eq (Prob.trunc ub) ub)) then .throws .invalidArgument
  else .ok ()

/-- `boost::numeric_cast<long long>` of a double: towards zero, an exception outside the range of `long long`. -/
def toLongLong [FloorRing K] : Fl K → Outcome ℤ
  | .fin a =>
    let z : ℤ := if 0 ≤ a then ⌊a⌋ else ⌈a⌉
    if z < -2 ^ 63 ∨ 2 ^ 63 - 1 < z then .throws .badCast else .ok z
  | _ => .throws .badCast

/-- The `try` block of include/pagmo/utils/generic.hpp 153-160 (and 358-366): any exception becomes
`std::invalid_argument`. -/
def toLongLongs [FloorRing K] (lb ub : Fl K) : Outcome (ℤ × ℤ) :=
  match toLongLong lb, toLongLong ub with
  | .ok l, .ok u => .ok (l, u)
  | _, _ => .throws .invalidArgument

/-- `uniform_integral_from_range_impl`, include/pagmo/utils/generic.hpp 145-164. -/
def uniformIntegral [FloorRing K] (finiteCheck lbUbCheck intCheck : Bool) (g : Gen K σ) (lb ub : Fl K) :
    Run σ (Fl K) := do
  Run.lift (intChecks finiteCheck lbUbCheck intCheck lb ub)
  let lu ← Run.lift (toLongLongs lb ub)
  let v ← g.drawInt lu.1 lu.2
  pure (.fin (g.ofInt v))

/-- `uniform_real_from_range`, include/pagmo/utils/generic.hpp 245-250. -/
def uniformRealFromRange (g : Gen K σ) (op : Fl.Ops K) (lb ub : Fl K) : Run σ (Fl K) :=
  uniformReal true true true g op lb ub

/-- `uniform_integral_from_range`, include/pagmo/utils/generic.hpp 207-212. -/
def uniformIntegralFromRange [FloorRing K] (g : Gen K σ) (lb ub : Fl K) : Run σ (Fl K) :=
  uniformIntegral true true true g lb ub

/-- Body of the first loop of `random_decision_vector`, include/pagmo/utils/generic.hpp 283-287. -/
def rdvReal (g : Gen K σ) (op : Fl.Ops K) (lb ub out : List (Fl K)) (i : Nat) : Run σ (List (Fl K)) := do
  let l ← Run.lift (Outcome.get lb i)
  let u ← Run.lift (Outcome.get ub i)
  let v ← uniformReal true false true g op l u
  Run.lift (Outcome.set out i v)

/-- Body of the second loop, 290-295. -/
def rdvInt [FloorRing K] (g : Gen K σ) (lb ub out : List (Fl K)) (i : Nat) : Run σ (List (Fl K)) := do
  let l ← Run.lift (Outcome.get lb i)
  let u ← Run.lift (Outcome.get ub i)
  let v ← uniformIntegral true false false g l u
  Run.lift (Outcome.set out i v)

/-- `random_decision_vector`, include/pagmo/utils/generic.hpp 270-298; the problem enters through its bounds and
integer dimension. -/
def randomDecisionVector [FloorRing K] (g : Gen K σ) (op : Fl.Ops K) (lb ub : List (Fl K)) (nix : Nat) :
    Run σ (List (Fl K)) := do
  let nx := lb.length
  let ncx := nx - nix
  let out ← (List.range ncx).foldlM (rdvReal g op lb ub) (List.replicate nx (.fin 0))
  (List.range' ncx (nx - ncx)).foldlM (rdvInt g lb ub) out

/-- Checks of `batch_random_decision_vector`, include/pagmo/utils/generic.hpp 348-352, continuous part. -/
def batchCheckReal (op : Fl.Ops K) (lb ub : List (Fl K)) (i : Nat) : Outcome Unit := do
  let l ← Outcome.get lb i
  let u ← Outcome.get ub i
  realChecks true false true op l u

/-- The same, integer part, 353-367. -/
def batchCheckInt [FloorRing K] (lb ub : List (Fl K)) (i : Nat) : Outcome Unit := do
  let l ← Outcome.get lb i
  let u ← Outcome.get ub i
  intChecks true false false l u
  let _ ← toLongLongs l u
  .ok ()

/-- The conditional expression of 377-379. -/
def drawOrEqual (g : Gen K σ) (op : Fl.Ops K) (l u : Fl K) : Run σ (Fl K) :=
  if Fl.eq l u then pure l else g.drawReal op l u

/-- Body of the inner loop 376-380, for the block that begins at `i`. -/
def batchReal (g : Gen K σ) (op : Fl.Ops K) (lb ub : List (Fl K)) (i : Nat) (out : List (Fl K)) (j : Nat) :
    Run σ (List (Fl K)) := do
  let l ← Run.lift (Outcome.get lb j)
  let u ← Run.lift (Outcome.get ub j)
  let v ← drawOrEqual g op l u
  Run.lift (Outcome.set out (i + j) v)

/-- `static_cast<long long>` of a double: undefined outside the range. -/
def castLongLong [FloorRing K] (a : Fl K) : Outcome ℤ :=
  match toLongLong a with
  | .ok z => .ok z
  | _ => .ub

/-- Body of the inner loop 381-385. -/
def batchInt [FloorRing K] (g : Gen K σ) (lb ub : List (Fl K)) (i : Nat) (out : List (Fl K)) (j : Nat) :
    Run σ (List (Fl K)) := do
  let l ← Run.lift (Outcome.get lb j)
  let u ← Run.lift (Outcome.get ub j)
  let l ← Run.lift (castLongLong l)
  let u ← Run.lift (castLongLong u)
  let v ← g.drawInt l u
  Run.lift (Outcome.set out (i + j) (.fin (g.ofInt v)))

/-- Body of the outer loop 375-386: block number `k` begins at `i = k * nx`. -/
def batchBlock [FloorRing K] (g : Gen K σ) (op : Fl.Ops K) (lb ub : List (Fl K)) (nix : Nat) (out : List (Fl K))
    (k : Nat) : Run σ (List (Fl K)) := do
  let nx := lb.length
  let ncx := nx - nix
  let out ← (List.range ncx).foldlM (batchReal g op lb ub (k * nx)) out
  (List.range' ncx (nx - ncx)).foldlM (batchInt g lb ub (k * nx)) out

/-- `batch_random_decision_vector`, include/pagmo/utils/generic.hpp 325-389. The size of the result is computed in
64-bit arithmetic; the outer loop runs while `i < out.size()` in steps of `nx`, i.e. over the blocks. Failure of the
allocation (`std::bad_alloc`, `std::length_error`) is not modelled. Division by zero is undefined. -/
def batchRandomDecisionVector [FloorRing K] (g : Gen K σ) (op : Fl.Ops K) (lb ub : List (Fl K)) (nix n : Nat) :
    Run σ (List (Fl K)) := do
  let nx := lb.length
  let ncx := nx - nix
  if nx = 0 then Run.lift .ub
  else if n > Prob.sizeMax / nx then Run.throw .overflowError
  else do
    Run.lift ((List.range ncx).forM (batchCheckReal op lb ub))
    Run.lift ((List.range' ncx (nx - ncx)).forM (batchCheckInt lb ub))
    let size := Prob.w64 (nx * n)
    (List.range ((size + nx - 1) / nx)).foldlM (batchBlock g op lb ub nix) (List.replicate size (.fin 0))

/-! ## Bound repair -/

/-- Body of the loop of `force_bounds_random`, include/pagmo/utils/generic.hpp 407-411. -/
def forceRandomAt (g : Gen K σ) (op : Fl.Ops K) (lb ub x : List (Fl K)) (j : Nat) : Run σ (List (Fl K)) := do
  let l ← Run.lift (Outcome.get lb j)
  let u ← Run.lift (Outcome.get ub j)
  let v ← Run.lift (Outcome.get x j)
  if Fl.lt v l || Fl.gt v u then do
    let w ← uniformRealFromRange g op l u
    Run.lift (Outcome.set x j w)
  else pure x

/-- `detail::force_bounds_random`, include/pagmo/utils/generic.hpp 402-412. -/
def forceBoundsRandom (g : Gen K σ) (op : Fl.Ops K) (x lb ub : List (Fl K)) : Run σ (List (Fl K)) :=
  (List.range x.length).foldlM (forceRandomAt g op lb ub) x

/-- One component of `force_bounds_stick`, src/utils/generic.cpp 176-181. -/
def stick1 (l u v : Fl K) : Fl K :=
  let v := if Fl.lt v l then l else v
  if Fl.gt v u then u else v

/-- Body of the loop of `force_bounds_stick`. -/
def forceStickAt (lb ub x : List (Fl K)) (j : Nat) : Outcome (List (Fl K)) := do
  let l ← Outcome.get lb j
  let u ← Outcome.get ub j
  let v ← Outcome.get x j
  Outcome.set x j (stick1 l u v)

/-- `detail::force_bounds_stick`, src/utils/generic.cpp 171-183. -/
def forceBoundsStick (x lb ub : List (Fl K)) : Outcome (List (Fl K)) :=
  (List.range x.length).foldlM (forceStickAt lb ub) x

/-- Body of the `while` loop of `force_bounds_reflection`, src/utils/generic.cpp 160-165. -/
def reflectStep (op : Fl.Ops K) (l u v : Fl K) : Fl K :=
  let two := op.add op.one op.one
  let v := if Fl.lt v l then op.sub (op.mul two l) v else v
  if Fl.gt v u then op.sub (op.mul two u) v else v

/-- The `while` loop, src/utils/generic.cpp 159-166, given a bound on the number of iterations. -/
def reflect (op : Fl.Ops K) (l u : Fl K) : Nat → Fl K → Outcome (Fl K)
  | fuel, v =>
    if Fl.lt v l || Fl.gt v u then
      match fuel with
      | 0 => .nofuel
      | fuel + 1 => reflect op l u fuel (reflectStep op l u v)
    else .ok v

/-- Body of the loop over the components, src/utils/generic.cpp 158-167. -/
def forceReflectionAt (op : Fl.Ops K) (fuel : Nat) (lb ub x : List (Fl K)) (j : Nat) : Outcome (List (Fl K)) := do
  let l ← Outcome.get lb j
  let u ← Outcome.get ub j
  let v ← Outcome.get x j
  let w ← reflect op l u fuel v
  Outcome.set x j w

/-- `detail::force_bounds_reflection`, src/utils/generic.cpp 154-168; at most `fuel` iterations per component. -/
def forceBoundsReflection (op : Fl.Ops K) (fuel : Nat) (x lb ub : List (Fl K)) : Outcome (List (Fl K)) :=
  (List.range x.length).foldlM (forceReflectionAt op fuel lb ub) x

end Verif.Rnd
