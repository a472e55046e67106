import Mathlib.MeasureTheory.Measure.Lebesgue.Basic

/-!
# What the hypervolume of a set of points is

The Lebesgue measure of the set of vectors dominated (weakly) by some point and not worse than the reference point.
-/

set_option autoImplicit false

namespace Verif.Spec

open MeasureTheory

/-- The vector with the first `d` coordinates of a list. -/
def pt (d : Nat) (p : List ℝ) : Fin d → ℝ := fun i => p.getD i 0

/-- The union of the boxes between the points and the reference point. -/
def cov (d : Nat) (pts : List (List ℝ)) (r : List ℝ) : Set (Fin d → ℝ) :=
  ⋃ p ∈ pts, Set.Icc (pt d p) (pt d r)

/-- The hypervolume. -/
noncomputable def hvol (d : Nat) (pts : List (List ℝ)) (r : List ℝ) : ℝ := (volume (cov d pts r)).toReal

/-- points of dimension `d`, none worse than the reference point in any coordinate -/
def Below (d : Nat) (pts : List (List ℝ)) (r : List ℝ) : Prop :=
  r.length = d ∧ ∀ p ∈ pts, p.length = d ∧ ∀ i : Nat, i < d → p.getD i 0 ≤ r.getD i 0

end Verif.Spec
