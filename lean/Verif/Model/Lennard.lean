import Verif.Base.Outcome
import Mathlib.Data.Real.Basic

/-!
# Model of `lennard_jones`, src/problems/lennard_jones.cpp

Simplified: real numbers instead of doubles. The value `std::numeric_limits<double>::max()` set for two atoms at the same place is `top`; what
is added to it later does not change it (it is lost by rounding), four times it is the infinity of doubles, also `top`.
-/

set_option autoImplicit false

namespace Verif.Lj

open Verif

/-- the value of the fitness: a number, or the largest double and beyond -/
inductive Pot where
  | val (v : ℝ)
  | top

/-- The constructor, lennard_jones.cpp 51-62; the largest `unsigned` is a parameter. -/
def construct (maxU atoms : Nat) : Outcome Nat :=
  if atoms < 3 then .throws .invalidArgument
  else if maxU / 3 < atoms - 2 then .throws .overflowError
  else .ok atoms

/-- `lennard_jones::_r`, lennard_jones.cpp 132-152: coordinate `coord` of atom `atom` -/
def coordOf (x : List ℝ) (atom coord : Nat) : Outcome ℝ :=
  if atom = 0 then .ok 0
  else if atom = 1 then
    if coord < 2 then .ok 0 else Outcome.get x 0
  else if atom = 2 then
    if coord = 0 then .ok 0 else Outcome.get x coord
  else Outcome.get x (3 * (atom - 2) + coord)

/-- the body of the loops, lennard_jones.cpp 77-85 -/
noncomputable def pairStep (x : List ℝ) (f : Pot) (ij : Nat × Nat) : Outcome Pot := do
  let a0 ← coordOf x ij.1 0
  let b0 ← coordOf x ij.2 0
  let a1 ← coordOf x ij.1 1
  let b1 ← coordOf x ij.2 1
  let a2 ← coordOf x ij.1 2
  let b2 ← coordOf x ij.2 2
  let dist := (a0 - b0) ^ 2 + (a1 - b1) ^ 2 + (a2 - b2) ^ 2
  if dist = 0 then .ok .top
  else
    let sixth := (dist ^ 3)⁻¹
    match f with
    | .val v => .ok (.val (v + (sixth ^ 2 - sixth)))
    | .top => .ok .top

/-- the pairs visited, lennard_jones.cpp 75-76 -/
def pairs (n : Nat) : List (Nat × Nat) := (List.range (n - 1)).flatMap (fun i => (List.range' (i + 1) (n - (i + 1))).map (fun j => (i, j)))

/-- `lennard_jones::fitness`, lennard_jones.cpp 72-90 -/
noncomputable def fitness (n : Nat) (x : List ℝ) : Outcome (List Pot) := do
  let f ← (pairs n).foldlM (pairStep x) (.val 0)
  match f with
  | .val v => .ok [.val (4 * v)]
  | .top => .ok [.top]

/-- `lennard_jones::get_bounds`, lennard_jones.cpp 98-110 -/
def bounds (n : Nat) : List ℝ × List ℝ :=
  let special := fun i : Nat => i ≠ 0 ∧ i % 3 = 0
  ((List.range (3 * n - 6)).map (fun i => if special i then 0 else -3), (List.range (3 * n - 6)).map (fun i => if special i then 6 else 3))

end Verif.Lj
