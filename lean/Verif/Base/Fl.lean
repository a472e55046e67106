import Mathlib.Order.Basic
import Mathlib.Data.Prod.Lex
import Mathlib.Algebra.Order.Ring.Rat

/-!
# Doubles

`Fl K` models a C++ `double` whose finite values are taken from a linear order `K`.
For code that only compares doubles `K` may be *any* linear order, in particular the finite IEEE
doubles with `+0` and `-0` identified (IEEE comparisons do not distinguish them).
For code that does arithmetic `K` is an ordered field and arithmetic is exact.
-/

set_option autoImplicit false

namespace Verif

/-- A C++ `double`: NaN, an infinity, or a finite value. -/
inductive Fl (K : Type) where
  | nan
  | ninf
  | fin (k : K)
  | pinf
  deriving DecidableEq, Repr

namespace Fl

variable {K : Type}

/-- `std::isnan`. -/
def isNan : Fl K → Bool
  | nan => true
  | _ => false

/-- `std::isfinite`. -/
def isFinite : Fl K → Bool
  | fin _ => true
  | _ => false

/-- `std::isinf`. -/
def isInf : Fl K → Bool
  | ninf => true
  | pinf => true
  | _ => false

section cmp
variable [LinearOrder K]

/-- The C++ operator `a < b` on doubles (false as soon as one side is NaN). -/
def lt : Fl K → Fl K → Bool
  | nan, _ => false
  | _, nan => false
  | _, ninf => false
  | ninf, _ => true
  | pinf, _ => false
  | fin a, fin b => decide (a < b)
  | fin _, pinf => true

/-- The C++ operator `a > b`. -/
def gt (a b : Fl K) : Bool := lt b a

/-- The C++ operator `a == b` on doubles. -/
def eq : Fl K → Fl K → Bool
  | ninf, ninf => true
  | pinf, pinf => true
  | fin a, fin b => decide (a = b)
  | _, _ => false

/-- The C++ operator `a <= b` on doubles. -/
def le (a b : Fl K) : Bool := lt a b || eq a b

/-- The C++ operator `a >= b` on doubles. -/
def ge (a b : Fl K) : Bool := le b a

/-- Position of the kind of value in the NaN-last order. -/
def cls : Fl K → ℕ
  | ninf => 0
  | fin _ => 1
  | pinf => 2
  | nan => 3

/-- Specification order on doubles: `-inf < finite values < +inf < NaN`. It is written directly,
without reference to the comparison functions of the code. -/
instance : LE (Fl K) where
  le a b := match a, b with
    | fin x, fin y => x ≤ y
    | a, b => cls a ≤ cls b

instance : LT (Fl K) where
  lt a b := match a, b with
    | fin x, fin y => x < y
    | a, b => cls a < cls b

theorem le_def (a b : Fl K) : a ≤ b ↔ (match a, b with
    | fin x, fin y => x ≤ y
    | a, b => cls a ≤ cls b) := Iff.rfl

theorem lt_def (a b : Fl K) : a < b ↔ (match a, b with
    | fin x, fin y => x < y
    | a, b => cls a < cls b) := Iff.rfl

instance decLE : DecidableLE (Fl K) := fun a b => by
  rw [le_def]; cases a <;> cases b <;> simp only [] <;> infer_instance

instance decLT : DecidableLT (Fl K) := fun a b => by
  rw [lt_def]; cases a <;> cases b <;> simp only [] <;> infer_instance

instance : LinearOrder (Fl K) where
  le_refl a := by cases a <;> simp [le_def]
  le_trans a b c := by
    cases a <;> cases b <;> cases c <;> simp [le_def, cls]
    exact fun h h' => le_trans h h'
  lt_iff_le_not_ge a b := by
    cases a <;> cases b <;> simp [le_def, lt_def, cls]
    exact fun h => le_of_lt h
  le_antisymm a b := by
    cases a <;> cases b <;> simp [le_def, cls]
    exact fun h h' => le_antisymm h h'
  le_total a b := by
    cases a <;> cases b <;> simp [le_def, cls]
    exact le_total _ _
  toDecidableLE := decLE
  toDecidableEq := inferInstance
  toDecidableLT := decLT

@[simp] theorem fin_le_fin {x y : K} : (fin x : Fl K) ≤ fin y ↔ x ≤ y := Iff.rfl
@[simp] theorem fin_lt_fin {x y : K} : (fin x : Fl K) < fin y ↔ x < y := Iff.rfl
@[simp] theorem le_nan (a : Fl K) : a ≤ nan := by cases a <;> simp [le_def, cls]
@[simp] theorem ninf_le (a : Fl K) : ninf ≤ a := by cases a <;> simp [le_def, cls]
@[simp] theorem not_nan_lt (a : Fl K) : ¬ nan < a := by cases a <;> simp [lt_def, cls]
theorem lt_nan_iff (a : Fl K) : a < nan ↔ a ≠ nan := by cases a <;> simp [lt_def, cls]

/-- On non-NaN values the C++ `<` is the specification order. -/
theorem lt_iff {a b : Fl K} (ha : a ≠ nan) (hb : b ≠ nan) : lt a b = true ↔ a < b := by
  cases a <;> cases b <;> simp_all [lt, lt_def, cls]

theorem lt_nan_left (b : Fl K) : lt nan b = false := by cases b <;> rfl
theorem lt_nan_right (b : Fl K) : lt b nan = false := by cases b <;> rfl

theorem eq_iff {a b : Fl K} (ha : a ≠ nan) : eq a b = true ↔ a = b := by
  cases a <;> cases b <;> simp_all [eq]

theorem eq_nan_left (b : Fl K) : eq nan b = false := by cases b <;> rfl
theorem eq_nan_right (b : Fl K) : eq b nan = false := by cases b <;> rfl

theorem le_iff {a b : Fl K} (ha : a ≠ nan) (hb : b ≠ nan) : le a b = true ↔ a ≤ b := by
  unfold le
  rw [Bool.or_eq_true, lt_iff ha hb, eq_iff ha, le_iff_lt_or_eq]

/-- `detail::less_than_f<double, true>`, include/pagmo/detail/custom_comparisons.hpp 54-69. -/
def lessThanF (a b : Fl K) : Bool :=
  if !a.isNan then (if !b.isNan then lt a b else true)
  else (if !b.isNan then false else false)

/-- `detail::greater_than_f<double, true>`, include/pagmo/detail/custom_comparisons.hpp 74-89. -/
def greaterThanF (a b : Fl K) : Bool :=
  if !a.isNan then (if !b.isNan then gt a b else false)
  else (if !b.isNan then true else false)

/-- `detail::equal_to_f<double>`, include/pagmo/detail/custom_comparisons.hpp 92-100. -/
def equalToF (a b : Fl K) : Bool :=
  if !a.isNan && !b.isNan then eq a b else a.isNan && b.isNan

@[simp] theorem lessThanF_iff (a b : Fl K) : lessThanF a b = true ↔ a < b := by
  cases a <;> cases b <;> simp [lessThanF, isNan, lt, lt_def, cls]

@[simp] theorem greaterThanF_iff (a b : Fl K) : greaterThanF a b = true ↔ b < a := by
  cases a <;> cases b <;> simp [greaterThanF, isNan, gt, lt, lt_def, cls]

@[simp] theorem equalToF_iff (a b : Fl K) : equalToF a b = true ↔ a = b := by
  cases a <;> cases b <;> simp [equalToF, isNan, eq]

end cmp
end Fl
end Verif
