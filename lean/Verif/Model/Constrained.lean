import Verif.Base.FlArith
import Verif.Base.Sort

/-!
# Model of constraint handling: include/pagmo/utils/constrained.hpp, src/utils/constrained.cpp and
`problem::feasibility_f`

Arithmetic is exact on finite values; `sq` stands for `std::sqrt`.
-/

set_option autoImplicit false

namespace Verif.Con

open Verif Outcome

variable {K : Type} [Field K] [LinearOrder K]

/-- The loop shared by `detail::test_eq_constraints` and `detail::test_ineq_constraints`,
include/pagmo/utils/constrained.hpp 48-62 and 66-80. `isEq` selects `std::abs(c)` (equalities) or
`c` (inequalities). Running past the end of the tolerances is undefined behaviour. Accumulators: number
of satisfied constraints and sum of squares. -/
def testLoop (isEq : Bool) : List (Fl K) → List (Fl K) → Nat → Fl K → Outcome (Nat × Fl K)
  | [], _, n, l2 => .ok (n, l2)
  | _ :: _, [], _, _ => .ub
  | c :: cs, t :: ts, n, l2 =>
    let err := Fl.stdMax (Fl.sub (if isEq then Fl.abs c else c) t) (.fin 0)
    let l2 := Fl.add l2 (Fl.mul err err)
    testLoop isEq cs ts (if Fl.le err (.fin 0) then n + 1 else n) l2

/-- `detail::test_eq_constraints` / `detail::test_ineq_constraints`: number of satisfied constraints
and the L2 norm of the violations. -/
def testCons (sq : Fl K → Fl K) (isEq : Bool) (cs tol : List (Fl K)) : Outcome (Nat × Fl K) := do
  let (n, l2) ← testLoop isEq cs tol 0 (.fin 0)
  pure (n, sq l2)

/-- `compare_fc` with a vector of tolerances, src/utils/constrained.cpp 76-122. -/
def compareFc (sq : Fl K → Fl K) (f1 f2 : List (Fl K)) (neq : Nat) (tol : List (Fl K)) :
    Outcome Bool :=
  if f1.length ≠ f2.length then .throws .invalidArgument
  else if f1.length < 1 then .throws .invalidArgument
  else if f1.length - 1 ≠ tol.length then .throws .invalidArgument
  else if neq > f1.length - 1 then .throws .invalidArgument
  else do
    let c1eq ← testCons sq true ((f1.drop 1).take neq) tol
    let c1in ← testCons sq false (f1.drop (1 + neq)) (tol.drop neq)
    let n1 := c1eq.1 + c1in.1
    let l1 := Fl.add c1eq.2 c1in.2
    let c2eq ← testCons sq true ((f2.drop 1).take neq) tol
    let c2in ← testCons sq false (f2.drop (1 + neq)) (tol.drop neq)
    let n2 := c2eq.1 + c2in.1
    let l2 := sq (Fl.add (Fl.mul c2eq.2 c2eq.2) (Fl.mul c2in.2 c2in.2))
    if n1 = n2 then
      if n1 = f1.length - 1 then do
        let a ← Outcome.get f1 0
        let b ← Outcome.get f2 0
        pure (Fl.lessThanF a b)
      else pure (Fl.lessThanF l1 l2)
    else pure (decide (n1 > n2))

/-- `compare_fc` with a scalar tolerance, src/utils/constrained.cpp 137-146. -/
def compareFcScalar (sq : Fl K → Fl K) (f1 f2 : List (Fl K)) (neq : Nat) (tol : Fl K) :
    Outcome Bool :=
  if f1.length < 1 then .throws .invalidArgument
  else compareFc sq f1 f2 neq (List.replicate (f1.length - 1) tol)

/-- Comparator given to std::sort, src/utils/constrained.cpp 198-200 (only used below when no
comparison throws). -/
def conLt (sq : Fl K → Fl K) (fs : List (List (Fl K))) (neq : Nat) (tol : List (Fl K))
    (i j : Nat) : Bool :=
  match fs[i]?, fs[j]? with
  | some a, some b => compareFc sq a b neq tol == .ok true
  | _, _ => false

/-- `sort_population_con` with a vector of tolerances, src/utils/constrained.cpp 180-202.
Simplification: std::sort on two or more elements is taken to throw as soon as some pair of elements
makes `compare_fc` throw (any comparison sort has to relate all elements, so it meets such a pair when
the sizes are inconsistent). -/
def sortPopulationCon (srt : (Nat → Nat → Bool) → List Nat → List Nat) (sq : Fl K → Fl K)
    (fs : List (List (Fl K))) (neq : Nat) (tol : List (Fl K)) : Outcome (List Nat) :=
  if fs.length = 0 then .ok []
  else if fs.length = 1 then .ok [0]
  else if fs.any (fun a => fs.any (fun b => compareFc sq a b neq tol == .throws .invalidArgument))
  then .throws .invalidArgument
  else stdSort srt (conLt sq fs neq tol) (List.range fs.length)

/-- `problem::feasibility_f`, src/problem.cpp 709-721. `nobj`, `nec`, `nic` are the numbers of
objectives, equality and inequality constraints, `tol` is the stored tolerance vector. -/
def feasibilityF (sq : Fl K → Fl K) (nobj nec nic : Nat) (tol f : List (Fl K)) : Outcome Bool :=
  if f.length ≠ nobj + nec + nic then .throws .invalidArgument
  else do
    let e ← testCons sq true ((f.drop nobj).take nec) tol
    let i ← testCons sq false (f.drop (nobj + nec)) (tol.drop nec)
    pure (e.1 + i.1 == nec + nic)

/-- `problem::set_c_tol` with a vector, src/problem.cpp 620-638: the new stored tolerances. -/
def setCTol (nc : Nat) (tol : List (Fl K)) : Outcome (List (Fl K)) :=
  if tol.length ≠ nc then .throws .invalidArgument
  else if tol.any (fun t => t.isNan || Fl.lt t (.fin 0)) then .throws .invalidArgument
  else .ok tol

end Verif.Con
