import Mathlib.Analysis.SpecialFunctions.Trigonometric.Basic
import Mathlib.Analysis.SpecialFunctions.Pow.Real

/-!
# The problems UF1-UF10 and CF1-CF10

As in Zhang, Zhou, Zhao, Suganthan, Liu, Tiwari: Multiobjective optimization test instances for the CEC 2009 special session and competition. The
components of a decision vector are numbered from 1.
-/

set_option autoImplicit false

namespace Verif.Spec

/-- the odd `j` from 3 to `n` -/
def cecOdd (n : Nat) : Finset Nat := {j ∈ Finset.Icc 3 n | j % 2 = 1}

/-- the even `j` from 2 to `n` -/
def cecEven (n : Nat) : Finset Nat := {j ∈ Finset.Icc 2 n | j % 2 = 0}

/-- the `j` from 3 to `n` with remainder `k` on division by 3 -/
def cecThird (k n : Nat) : Finset Nat := {j ∈ Finset.Icc 3 n | j % 3 = k}

/-- twice the mean of `h` over `s` -/
noncomputable def mean2 (s : Finset Nat) (h : Nat → ℝ) : ℝ := 2 / s.card * ∑ j ∈ s, h j

/-- the distance term with a product of cosines -/
noncomputable def multi2 (s : Finset Nat) (y : Nat → ℝ) : ℝ :=
  2 / s.card * (4 * ∑ j ∈ s, y j ^ 2 - 2 * ∏ j ∈ s, Real.cos (20 * y j * Real.pi / Real.sqrt j) + 2)

/-- x_j - sin (6 π x₁ + j π / n) -/
noncomputable def cecY (n : Nat) (X : Nat → ℝ) (j : Nat) : ℝ := X j - Real.sin (6 * Real.pi * X 1 + j * Real.pi / n)

/-- x_j - 2 x₂ sin (2 π x₁ + j π / n) -/
noncomputable def cecZ (n : Nat) (X : Nat → ℝ) (j : Nat) : ℝ := X j - 2 * X 2 * Real.sin (2 * Real.pi * X 1 + j * Real.pi / n)

/-- x_j - x₁ ^ (0.5 (1 + 3 (j - 2) / (n - 2))) -/
noncomputable def cecP (n : Nat) (X : Nat → ℝ) (j : Nat) : ℝ := X j - X 1 ^ ((1 / 2 : ℝ) * (1 + 3 * ((j : ℝ) - 2) / ((n : ℝ) - 2)))

/-- the curve of UF2 -/
noncomputable def cecQ (n : Nat) (X : Nat → ℝ) (j : Nat) : ℝ :=
  X j - (3 / 10 * X 1 ^ 2 * Real.cos (24 * Real.pi * X 1 + 4 * j * Real.pi / n) + 6 / 10 * X 1)
    * (if j % 2 = 1 then Real.cos (6 * Real.pi * X 1 + j * Real.pi / n) else Real.sin (6 * Real.pi * X 1 + j * Real.pi / n))

/-- 2 y² - cos (4 π y) + 1 -/
noncomputable def cecH (y : ℝ) : ℝ := 2 * y ^ 2 - Real.cos (4 * Real.pi * y) + 1

/-- the first quarter of the unit sphere -/
noncomputable def cecSphere (X : Nat → ℝ) (d1 d2 d3 : ℝ) : List ℝ :=
  [Real.cos (X 1 * Real.pi / 2) * Real.cos (X 2 * Real.pi / 2) + d1, Real.cos (X 1 * Real.pi / 2) * Real.sin (X 2 * Real.pi / 2) + d2,
    Real.sin (X 1 * Real.pi / 2) + d3]

/-- the objectives of UF1-UF10 for dimension `n` -/
noncomputable def ufObj (n : Nat) (X : Nat → ℝ) : Nat → List ℝ
  | 1 => [X 1 + mean2 (cecOdd n) (fun j => cecY n X j ^ 2), 1 - Real.sqrt (X 1) + mean2 (cecEven n) (fun j => cecY n X j ^ 2)]
  | 2 => [X 1 + mean2 (cecOdd n) (fun j => cecQ n X j ^ 2), 1 - Real.sqrt (X 1) + mean2 (cecEven n) (fun j => cecQ n X j ^ 2)]
  | 3 => [X 1 + multi2 (cecOdd n) (cecP n X), 1 - Real.sqrt (X 1) + multi2 (cecEven n) (cecP n X)]
  | 4 => [X 1 + mean2 (cecOdd n) (fun j => |cecY n X j| / (1 + Real.exp (2 * |cecY n X j|))),
      1 - X 1 ^ 2 + mean2 (cecEven n) (fun j => |cecY n X j| / (1 + Real.exp (2 * |cecY n X j|)))]
  | 5 => [X 1 + (1 / 20 + 1 / 10) * |Real.sin (20 * Real.pi * X 1)| + mean2 (cecOdd n) (fun j => cecH (cecY n X j)),
      1 - X 1 + (1 / 20 + 1 / 10) * |Real.sin (20 * Real.pi * X 1)| + mean2 (cecEven n) (fun j => cecH (cecY n X j))]
  | 6 => [X 1 + max 0 (2 * (1 / 4 + 1 / 10) * Real.sin (4 * Real.pi * X 1)) + multi2 (cecOdd n) (cecY n X),
      1 - X 1 + max 0 (2 * (1 / 4 + 1 / 10) * Real.sin (4 * Real.pi * X 1)) + multi2 (cecEven n) (cecY n X)]
  | 7 => [X 1 ^ (1 / 5 : ℝ) + mean2 (cecOdd n) (fun j => cecY n X j ^ 2), 1 - X 1 ^ (1 / 5 : ℝ) + mean2 (cecEven n) (fun j => cecY n X j ^ 2)]
  | 8 => cecSphere X (mean2 (cecThird 1 n) (fun j => cecZ n X j ^ 2)) (mean2 (cecThird 2 n) (fun j => cecZ n X j ^ 2))
      (mean2 (cecThird 0 n) (fun j => cecZ n X j ^ 2))
  | 9 => [1 / 2 * (max 0 ((1 + 1 / 10) * (1 - 4 * (2 * X 1 - 1) ^ 2)) + 2 * X 1) * X 2 + mean2 (cecThird 1 n) (fun j => cecZ n X j ^ 2),
      1 / 2 * (max 0 ((1 + 1 / 10) * (1 - 4 * (2 * X 1 - 1) ^ 2)) - 2 * X 1 + 2) * X 2 + mean2 (cecThird 2 n) (fun j => cecZ n X j ^ 2),
      1 - X 2 + mean2 (cecThird 0 n) (fun j => cecZ n X j ^ 2)]
  | 10 => cecSphere X (mean2 (cecThird 1 n) (fun j => 4 * cecZ n X j ^ 2 - Real.cos (8 * Real.pi * cecZ n X j) + 1))
      (mean2 (cecThird 2 n) (fun j => 4 * cecZ n X j ^ 2 - Real.cos (8 * Real.pi * cecZ n X j) + 1))
      (mean2 (cecThird 0 n) (fun j => 4 * cecZ n X j ^ 2 - Real.cos (8 * Real.pi * cecZ n X j) + 1))
  | _ => []

end Verif.Spec
