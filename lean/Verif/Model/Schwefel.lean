import Verif.Model.Analytic
import Mathlib.Analysis.SpecialFunctions.Trigonometric.Basic

/-!
# Model of `schwefel`, src/problems/schwefel.cpp

Simplified: real numbers instead of doubles.
-/

set_option autoImplicit false

namespace Verif.Schw

open Verif Verif.Analytic

/-- the constructor, schwefel.cpp 44-50 -/
def construct (dim : Nat) : Outcome Nat := if dim < 1 then .throws .invalidArgument else .ok dim

/-- the summand, schwefel.cpp 65 -/
noncomputable def term (x : List ℝ) (i : Nat) : Outcome ℝ := do
  let a ← Outcome.get x i
  .ok (a * Real.sin (Real.sqrt |a|))

/-- `schwefel::fitness`, schwefel.cpp 60-69 -/
noncomputable def fitness (x : List ℝ) : Outcome (List ℝ) := do
  let s ← sumLoop x.length (term x) 0
  .ok [418.9828872724338 * (x.length : ℝ) - s]

/-- `schwefel::get_bounds`, schwefel.cpp 77-82 -/
def bounds (dim : Nat) : List ℝ × List ℝ := (List.replicate dim (-500), List.replicate dim 500)

/-- `schwefel::best_known`, schwefel.cpp 88-91 -/
noncomputable def best (dim : Nat) : List ℝ := List.replicate dim 420.9687

end Verif.Schw
