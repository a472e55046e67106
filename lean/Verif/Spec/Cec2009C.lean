import Verif.Spec.Cec2009
import Mathlib.Data.Real.Sign

/-!
# The problems CF1-CF10

As in the report cited in Spec/Cec2009. A constraint of the report, g ≥ 0, is written -g ≤ 0.
-/

set_option autoImplicit false

namespace Verif.Spec

/-- x_j - sin (6 π x₁ + j π / n) for odd `j`, with the cosine for even `j` -/
noncomputable def cecSC (n : Nat) (X : Nat → ℝ) (j : Nat) : ℝ :=
  X j - if j % 2 = 1 then Real.sin (6 * Real.pi * X 1 + j * Real.pi / n) else Real.cos (6 * Real.pi * X 1 + j * Real.pi / n)

/-- x_j - r cos (6 π x₁ + j π / n) for odd `j`, with the sine for even `j` -/
noncomputable def cecCS (n : Nat) (r : ℝ) (X : Nat → ℝ) (j : Nat) : ℝ :=
  X j - r * if j % 2 = 1 then Real.cos (6 * Real.pi * X 1 + j * Real.pi / n) else Real.sin (6 * Real.pi * X 1 + j * Real.pi / n)

/-- the function with two branches of CF4 and CF5 -/
noncomputable def cecTwo (t : ℝ) : ℝ := if t < 3 / 2 * (1 - Real.sqrt 2 / 2) then |t| else 1 / 8 + (t - 1) ^ 2

/-- the objectives of CF1-CF10 for dimension `n` -/
noncomputable def cfObj (n : Nat) (X : Nat → ℝ) : Nat → List ℝ
  | 1 => [X 1 + mean2 (cecOdd n) (fun j => cecP n X j ^ 2), 1 - X 1 + mean2 (cecEven n) (fun j => cecP n X j ^ 2)]
  | 2 => [X 1 + mean2 (cecOdd n) (fun j => cecSC n X j ^ 2), 1 - Real.sqrt (X 1) + mean2 (cecEven n) (fun j => cecSC n X j ^ 2)]
  | 3 => [X 1 + multi2 (cecOdd n) (cecY n X), 1 - X 1 ^ 2 + multi2 (cecEven n) (cecY n X)]
  | 4 => [X 1 + ∑ j ∈ cecOdd n, cecY n X j ^ 2, 1 - X 1 + ∑ j ∈ cecEven n, if j = 2 then cecTwo (cecY n X j) else cecY n X j ^ 2]
  | 5 => [X 1 + ∑ j ∈ cecOdd n, cecH (cecCS n (8 / 10 * X 1) X j),
      1 - X 1 + ∑ j ∈ cecEven n, if j = 2 then cecTwo (cecCS n (8 / 10 * X 1) X j) else cecH (cecCS n (8 / 10 * X 1) X j)]
  | 6 => [X 1 + ∑ j ∈ cecOdd n, cecCS n (8 / 10 * X 1) X j ^ 2, (1 - X 1) ^ 2 + ∑ j ∈ cecEven n, cecCS n (8 / 10 * X 1) X j ^ 2]
  | 7 => [X 1 + ∑ j ∈ cecOdd n, cecH (cecCS n 1 X j),
      (1 - X 1) ^ 2 + ∑ j ∈ cecEven n, if j = 2 ∨ j = 4 then cecCS n 1 X j ^ 2 else cecH (cecCS n 1 X j)]
  | 8 => ufObj n X 8
  | 9 => ufObj n X 8
  | 10 => ufObj n X 10
  | _ => []

/-- the left hand side of the constraints of CF8-CF10, not defined if f₃² = 1 -/
noncomputable def cecSphereCon (a : ℝ) (w : ℝ → ℝ) (f₁ f₂ f₃ : ℝ) : Option ℝ :=
  if f₃ ^ 2 = 1 then none
  else some ((f₁ ^ 2 + f₂ ^ 2) / (1 - f₃ ^ 2) - a * w (Real.sin (2 * Real.pi * ((f₁ ^ 2 - f₂ ^ 2) / (1 - f₃ ^ 2) + 1))) - 1)

/-- sign (v) sqrt |v| -/
noncomputable def cecRoot (v : ℝ) : ℝ := Real.sign v * Real.sqrt |v|

/-- the left hand sides g of the constraints g ≥ 0 of CF1-CF10, in terms of the decision vector and the objectives -/
noncomputable def cfCon (n : Nat) (X : Nat → ℝ) (f₁ f₂ f₃ : ℝ) : Nat → List (Option ℝ)
  | 1 => [some (f₁ + f₂ - |Real.sin (10 * Real.pi * (f₁ - f₂ + 1))| - 1)]
  | 2 =>
    let t := f₂ + Real.sqrt f₁ - Real.sin (2 * Real.pi * (Real.sqrt f₁ - f₂ + 1)) - 1
    [some (t / (1 + Real.exp (4 * |t|)))]
  | 3 => [some (f₂ + f₁ ^ 2 - Real.sin (2 * Real.pi * (f₁ ^ 2 - f₂ + 1)) - 1)]
  | 4 =>
    let t := cecY n X 2 - 1 / 2 * X 1 + 1 / 4
    [some (t / (1 + Real.exp (4 * |t|)))]
  | 5 => [some (cecCS n (8 / 10 * X 1) X 2 - 1 / 2 * X 1 + 1 / 4)]
  | 6 => [some (cecCS n (8 / 10 * X 1) X 2 - cecRoot ((X 1 - 1 / 2) * (1 - X 1))),
      some (cecCS n (8 / 10 * X 1) X 4 - cecRoot (1 / 4 * Real.sqrt (1 - X 1) - 1 / 2 * (1 - X 1)))]
  | 7 => [some (cecCS n 1 X 2 - cecRoot ((X 1 - 1 / 2) * (1 - X 1))),
      some (cecCS n 1 X 4 - cecRoot (1 / 4 * Real.sqrt (1 - X 1) - 1 / 2 * (1 - X 1)))]
  | 8 => [cecSphereCon 4 abs f₁ f₂ f₃]
  | 9 => [cecSphereCon 3 id f₁ f₂ f₃]
  | 10 => [cecSphereCon 1 id f₁ f₂ f₃]
  | _ => []

/-- objectives and constraints of CF1-CF10, the latter in the form -g ≤ 0 -/
noncomputable def cfFit (n : Nat) (X : Nat → ℝ) (i : Nat) : List (Option ℝ) :=
  let f := cfObj n X i
  f.map some ++ (cfCon n X (f.getD 0 0) (f.getD 1 0) (f.getD 2 0) i).map (fun g => g.map (fun g => -g))

end Verif.Spec
