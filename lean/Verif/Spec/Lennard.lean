import Mathlib.Analysis.InnerProductSpace.PiL2

/-!
# The Lennard-Jones potential
-/

set_option autoImplicit false

namespace Verif.Spec

/-- points of space -/
abbrev Space := EuclideanSpace ℝ (Fin 3)

/-- The Lennard-Jones potential of the first `n` of the points `P`, in units where depth and zero of the pair potential are 1: the sum over the
pairs of 4 (1/r¹² - 1/r⁶) with `r` their distance. -/
noncomputable def ljEnergy (n : Nat) (P : Nat → Space) : ℝ :=
  ∑ i ∈ Finset.range n, ∑ j ∈ Finset.Ico (i + 1) n, 4 * (1 / dist (P i) (P j) ^ 12 - 1 / dist (P i) (P j) ^ 6)

/-- no two of the first `n` points are the same -/
def Apart (n : Nat) (P : Nat → Space) : Prop := ∀ i j : Nat, i < j → j < n → P i ≠ P j

/-- the cluster a decision vector stands for: the first atom in the origin, the second on the third axis, the third in the plane of the last
two axes, the others anywhere -/
def cluster (x : List ℝ) : Nat → Space
  | 0 => !₂[0, 0, 0]
  | 1 => !₂[0, 0, x.getD 0 0]
  | 2 => !₂[0, x.getD 1 0, x.getD 2 0]
  | k + 3 => !₂[x.getD (3 * k + 3) 0, x.getD (3 * k + 4) 0, x.getD (3 * k + 5) 0]

end Verif.Spec
