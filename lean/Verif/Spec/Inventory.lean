import Mathlib.Data.Real.Basic
import Mathlib.Algebra.BigOperators.Group.Finset.Basic

/-!
# The inventory of a news vendor (documentation of inventory.hpp 46-62)
-/

set_option autoImplicit false

namespace Verif.Spec

/-- the journals left at the start of a week: what was left and ordered, less the demand, and never negative -/
noncomputable def invLevel (x d : Nat → ℝ) : Nat → ℝ
  | 0 => 0
  | j + 1 => max (invLevel x d j + x j - d j) 0

/-- the cost of `n` weeks: 1 for a journal ordered before the week, 1.5 for one ordered during it, 0.1 for one held -/
noncomputable def invCost (n : Nat) (x d : Nat → ℝ) : ℝ :=
  ∑ j ∈ Finset.range n, x j + 3 / 2 * ∑ j ∈ Finset.range n, max (d j - invLevel x d j - x j) 0
    + 1 / 10 * ∑ j ∈ Finset.range n, max (invLevel x d j + x j - d j) 0

end Verif.Spec
