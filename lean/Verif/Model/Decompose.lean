import Verif.Base.FlArith
import Verif.Model.Discrepancy
import Mathlib.Data.Nat.Choose.Basic
import Mathlib.Data.Nat.Sqrt

/-!
# Model of decompose_objectives and decomposition_weights

src/utils/multi_objective.cpp 50-77 and 582-639, include/pagmo/utils/multi_objective.hpp 127-212.
-/

set_option autoImplicit false

namespace Verif.Dec

open Verif Outcome

section objectives
variable {K : Type} [Field K] [LinearOrder K]

/-- Loop of the "weighted" method, src/utils/multi_objective.cpp 605-607. -/
def weightedLoop (op : Fl.Ops K) (f w : List (Fl K)) : Outcome (Fl K) :=
  (List.range f.length).foldlM (fun fd i => do
    let wi ← Outcome.get w i
    let fi ← Outcome.get f i
    Outcome.ok (op.add fd (op.mul wi fi))) op.zero

/-- Loop of the "tchebycheff" method, src/utils/multi_objective.cpp 609-617. `eps` is the literal `1e-4`. -/
def tchebLoop (op : Fl.Ops K) (eps : Fl K) (f w z : List (Fl K)) : Outcome (Fl K) :=
  (List.range f.length).foldlM (fun fd i => do
    let wi ← Outcome.get w i
    let fixed := if Fl.eq wi op.zero then eps else wi
    let fi ← Outcome.get f i
    let zi ← Outcome.get z i
    let tmp := op.mul fixed (Fl.abs (op.sub fi zi))
    Outcome.ok (if Fl.gt tmp fd then tmp else fd)) op.zero

/-- The "bi" method, src/utils/multi_objective.cpp 619-633. `theta` is the literal `5.`, `sq` is `std::sqrt`;
`std::pow(x, 2)` is modelled as `x * x`. -/
def biLoop (op : Fl.Ops K) (sq : Fl K → Fl K) (theta : Fl K) (f w z : List (Fl K)) : Outcome (Fl K) := do
  let s ← (List.range f.length).foldlM (fun (s : Fl K × Fl K) i => do
    let fi ← Outcome.get f i
    let zi ← Outcome.get z i
    let wi ← Outcome.get w i
    Outcome.ok (op.add s.1 (op.mul (op.sub fi zi) wi), op.add s.2 (op.mul wi wi))) (op.zero, op.zero)
  let wn := sq s.2
  let d1 := op.div s.1 wn
  let d2 ← (List.range f.length).foldlM (fun d2 i => do
    let fi ← Outcome.get f i
    let zi ← Outcome.get z i
    let wi ← Outcome.get w i
    let t := op.sub fi (op.add zi (op.div (op.mul d1 wi) wn))
    Outcome.ok (op.add d2 (op.mul t t))) op.zero
  Outcome.ok (op.add d1 (op.mul theta (sq d2)))

/-- `decompose_objectives`, src/utils/multi_objective.cpp 582-639. -/
def decomposeObjectives (op : Fl.Ops K) (sq : Fl K → Fl K) (eps theta : Fl K)
    (f w z : List (Fl K)) (method : String) : Outcome (List (Fl K)) :=
  if w.length ≠ f.length then .throws .invalidArgument
  else if z.length ≠ f.length then .throws .invalidArgument
  else if f.length = 0 then .throws .invalidArgument
  else if method = "weighted" then do
    let fd ← weightedLoop op f w
    Outcome.ok [fd]
  else if method = "tchebycheff" then do
    let fd ← tchebLoop op eps f w z
    Outcome.ok [fd]
  else if method = "bi" then do
    let fd ← biLoop op sq theta f w z
    Outcome.ok [fd]
  else .throws .invalidArgument

end objectives

section weights
variable {K : Type} [Field K] [LinearOrder K]

/-- `detail::reksum`, src/utils/multi_objective.cpp 60-77: the vectors appended to `retval`, in order. `X` is
the vector of allowed values, `s - X[i]` is unsigned 64 bit subtraction. Entries are kept as naturals, the
conversion to double is exact below 2^53. The call with `m = 0` does not occur (`m` would wrap). -/
def reksum (X : List Nat) : Nat → Nat → List Nat → List (List Nat)
  | 0, _, _ => []
  | 1, s, eggs => if X.contains s then [eggs ++ [s]] else []
  | m + 2, s, eggs =>
    X.flatMap (fun x => reksum X (m + 1) ((s + 2 ^ 64 - x) % 2 ^ 64) (eggs ++ [x]))

/-- The loop `while (binomial_coefficient(H + n_f - 1, n_f - 1) <= n_w) ++H;`,
include/pagmo/utils/multi_objective.hpp 158-160; the binomial coefficient (computed with lgamma and rounded,
src/utils/generic.cpp 79-88) is idealised to the exact one. -/
def gridSearch (nf nw : Nat) : Nat → Nat → Outcome Nat
  | 0, _ => .nofuel
  | fuel + 1, H =>
    if (H + nf - 1).choose (nf - 1) ≤ nw then gridSearch nf nw fuel (H + 1) else .ok H

/-- The choice of `H`, include/pagmo/utils/multi_objective.hpp 151-162. For three objectives the double
expression `floor(0.5 * (sqrt(8 n_w + 1) - 3))` is idealised to its exact value
(`Verif.Props.C10_grid_H_formula`). -/
def gridH (nf nw : Nat) : Outcome Nat :=
  if nf = 2 then .ok (nw - 1)
  else if nf = 3 then .ok ((Nat.sqrt (8 * nw + 1) - 3) / 2)
  else do
    let H ← gridSearch nf nw (nw + 1) 1
    Outcome.ok (H - 1)

/-- "grid", include/pagmo/utils/multi_objective.hpp 149-180. `abs(n_w - binomial) > 1E-8` on whole numbers is
`n_w ≠ binomial`. -/
def gridWeights (nf nw : Nat) : Outcome (List (List (Fl K))) := do
  let H ← gridH nf nw
  if nw ≠ (H + nf - 1).choose (nf - 1) then .throws .invalidArgument
  else Outcome.ok ((reksum (List.range (H + 1)) nf H []).map
    (fun v => v.map (fun x : Nat => Fl.div (.fin (x : K)) (.fin (H : K)))))

/-- The canonical weights pushed first, include/pagmo/utils/multi_objective.hpp 183-186 and 194-197:
`retval.push_back(vector_double(n_f, 0.)); retval[i][i] = 1.`. -/
def corners (nf : Nat) : Outcome (List (List (Fl K))) :=
  (List.range nf).foldlM (fun ret i => do
    let ret := ret ++ [List.replicate nf (.fin 0)]
    let r ← Outcome.get ret i
    let r' ← Outcome.set r i (.fin 1)
    Outcome.set ret i r') []

/-- "low discrepancy", include/pagmo/utils/multi_objective.hpp 181-191. -/
def lowDiscrepancyWeights (srt : (Fl K → Fl K → Bool) → List (Fl K) → List (Fl K)) (nf nw : Nat) :
    Outcome (List (List (Fl K))) := do
  let ret ← corners nf
  if nf - 1 ≥ 2 ^ 32 then .throws .badCast
  else if nf ≥ 2 ^ 32 then .throws .badCast
  else
    let h ← Disc.haltonMake (nf - 1) nf
    let r ← (List.range (nw - nf)).foldlM (fun (s : List (List (Fl K)) × List Disc.Vdc) _ => do
      let p ← (Disc.haltonNext s.2 : Outcome (List K × List Disc.Vdc))
      let x ← Disc.sampleFromSimplex srt (p.1.map Fl.fin)
      Outcome.ok (s.1 ++ [x], p.2)) (ret, h)
    Outcome.ok r.1

/-- "random", include/pagmo/utils/multi_objective.hpp 192-206. The random engine is a stream of numbers
`u 0, u 1, …`; the `j`-th draw for the `i`-th vector is `u (i * (n_f - 1) + j)`. -/
def randomWeights (srt : (Fl K → Fl K → Bool) → List (Fl K) → List (Fl K)) (u : Nat → K) (nf nw : Nat) :
    Outcome (List (List (Fl K))) := do
  let ret ← corners nf
  (List.range (nw - nf)).foldlM (fun ret i => do
    let x ← Disc.sampleFromSimplex srt
      ((List.range (nf - 1)).map (fun j => Fl.fin (u (i * (nf - 1) + j))))
    Outcome.ok (ret ++ [x])) ret

/-- `decomposition_weights`, include/pagmo/utils/multi_objective.hpp 127-212. -/
def decompositionWeights (srt : (Fl K → Fl K → Bool) → List (Fl K) → List (Fl K)) (u : Nat → K)
    (nf nw : Nat) (method : String) : Outcome (List (List (Fl K))) :=
  if nf > nw then .throws .invalidArgument
  else if nf < 2 then .throws .invalidArgument
  else if method = "grid" then gridWeights nf nw
  else if method = "low discrepancy" then lowDiscrepancyWeights srt nf nw
  else if method = "random" then randomWeights srt u nf nw
  else .throws .invalidArgument

end weights

end Verif.Dec
