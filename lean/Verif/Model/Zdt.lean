import Verif.Model.Analytic
import Mathlib.Analysis.SpecialFunctions.Pow.Real
import Mathlib.Algebra.Order.Floor.Ring

/-!
# Model of the ZDT problem suite, src/problems/zdt.cpp

Simplified: real numbers instead of doubles (no rounding, no overflow), except that the integer arithmetic on the parameter, of type
`unsigned`, wraps around. An access out of range is undefined behaviour. `x.size() - 1u` is a natural number here, so the model says nothing
about the metric of an empty vector (where the code divides by 2^64 - 1).
-/

set_option autoImplicit false

namespace Verif.Zdt

open Verif Verif.Analytic

/-- the members of `zdt` -/
structure Zdt where
  id : Nat
  param : Nat

/-- the constructor, zdt.cpp 55-66 -/
def ctor (id param : Nat) : Outcome Zdt :=
  if param < 2 then .throws .invalidArgument
  else if id = 0 ∨ id > 6 then .throws .invalidArgument
  else .ok ⟨id, param⟩

/-- `30u + 5u * (m_param - 1u)`, zdt.cpp 127 and 153 -/
def dim5 (param : Nat) : Nat := (30 + 5 * (param - 1)) % 2 ^ 32

/-- `zdt::get_bounds`, zdt.cpp 108-133 -/
def bounds (p : Zdt) : List ℝ × List ℝ :=
  match p.id with
  | 1 => (List.replicate p.param 0, List.replicate p.param 1)
  | 2 => (List.replicate p.param 0, List.replicate p.param 1)
  | 3 => (List.replicate p.param 0, List.replicate p.param 1)
  | 6 => (List.replicate p.param 0, List.replicate p.param 1)
  | 4 => ((List.replicate p.param (-5)).set 0 0, (List.replicate p.param 5).set 0 1)
  | 5 => (List.replicate (dim5 p.param) 0, List.replicate (dim5 p.param) 1)
  | _ => ([], [])

/-- `zdt::get_nix`, zdt.cpp 141-158 -/
def nix (p : Zdt) : Nat :=
  match p.id with
  | 5 => dim5 p.param
  | _ => 0

/-- `x[i]` for `i` from 1, the summand in ZDT1, 2, 3 and 6 -/
def tailTerm (x : List ℝ) (i : Nat) : Outcome ℝ := Outcome.get x (i + 1)

/-- `1. + (9. * g) / (N - 1u)`, zdt.cpp 240-243, 256-259, 272-275 -/
noncomputable def g123 (x : List ℝ) : Outcome ℝ := do
  let g ← sumLoop (x.length - 1) (tailTerm x) 0
  .ok (1 + 9 * g / ((x.length - 1 : Nat) : ℝ))

/-- `zdt1_fitness`, zdt.cpp 233-247 -/
noncomputable def fit1 (x : List ℝ) : Outcome (List ℝ) := do
  let a ← Outcome.get x 0
  let g ← g123 x
  .ok [a, g * (1 - Real.sqrt (a / g))]

/-- `zdt2_fitness`, zdt.cpp 249-263 -/
noncomputable def fit2 (x : List ℝ) : Outcome (List ℝ) := do
  let a ← Outcome.get x 0
  let g ← g123 x
  .ok [a, g * (1 - a / g * (a / g))]

/-- `zdt3_fitness`, zdt.cpp 265-279 -/
noncomputable def fit3 (x : List ℝ) : Outcome (List ℝ) := do
  let a ← Outcome.get x 0
  let g ← g123 x
  .ok [a, g * (1 - Real.sqrt (a / g) - a / g * Real.sin (10 * Real.pi * a))]

/-- the summand of ZDT4 -/
noncomputable def term4 (x : List ℝ) (i : Nat) : Outcome ℝ := do
  let a ← Outcome.get x (i + 1)
  .ok (a * a - 10 * Real.cos (4 * Real.pi * a))

/-- `zdt4_fitness`, zdt.cpp 281-296 -/
noncomputable def fit4 (x : List ℝ) : Outcome (List ℝ) := do
  let a ← Outcome.get x 0
  let g ← sumLoop (x.length - 1) (term4 x) (1 + 10 * ((x.length - 1 : Nat) : ℝ))
  .ok [a, g * (1 - Real.sqrt (a / g))]

/-- `std::round`: to the nearest integer, halves away from zero -/
noncomputable def roundR (a : ℝ) : ℝ := if 0 ≤ a then (⌊a + 1 / 2⌋ : ℝ) else -(⌊-a + 1 / 2⌋ : ℝ)

/-- `std::floor` -/
noncomputable def floorR (a : ℝ) : ℝ := (⌊a⌋ : ℝ)

/-- The number of ones among the elements `k` to `k + n - 1`; `std::count` and the loop, zdt.cpp 316 and 318-325. In the code `k` is
carried along. -/
noncomputable def ones (x : List ℝ) (k n : Nat) : Outcome Nat :=
  (List.range n).foldlM (fun u j => do let a ← Outcome.get x (k + j); .ok (if a = 1 then u + 1 else u)) 0

/-- `v[i]`, zdt.cpp 327-333 and 408-414 -/
def blockValue (u : Nat) : Nat := if u < 5 then 2 + u else 1

/-- the summand for the string with index `i + 1` -/
noncomputable def blockTerm (x : List ℝ) (i : Nat) : Outcome ℝ := do
  let u ← ones x (30 + 5 * i) 5
  .ok (blockValue u : ℝ)

/-- `zdt5_fitness`, zdt.cpp 298-339. For fewer than 30 variables the number of strings wraps around and the vectors cannot be allocated
(`std::length_error` in the code, `badAlloc` here). -/
noncomputable def fit5 (xd : List ℝ) : Outcome (List ℝ) :=
  if xd.length < 30 then .throws .badAlloc
  else do
    let x := xd.map roundR
    let nv := (xd.length - 30) / 5 + 1
    let u0 ← ones x 0 30
    let f0 : ℝ := 1 + (u0 : ℝ)
    let g ← sumLoop (nv - 1) (blockTerm x) 0
    .ok [f0, g * (1 / f0)]

/-- `zdt6_fitness`, zdt.cpp 341-356 -/
noncomputable def fit6 (x : List ℝ) : Outcome (List ℝ) := do
  let a ← Outcome.get x 0
  let f0 := 1 - Real.exp (-4 * a) * Real.sin (6 * Real.pi * a) ^ 6
  let s ← sumLoop (x.length - 1) (tailTerm x) 0
  let g := 1 + 9 * (s / ((x.length - 1 : Nat) : ℝ)) ^ (0.25 : ℝ)
  .ok [f0, g * (1 - f0 / g * (f0 / g))]

/-- `zdt::fitness`, zdt.cpp 76-100 -/
noncomputable def fitness (p : Zdt) (x : List ℝ) : Outcome (List ℝ) :=
  match p.id with
  | 1 => fit1 x
  | 2 => fit2 x
  | 3 => fit3 x
  | 4 => fit4 x
  | 5 => fit5 x
  | 6 => fit6 x
  | _ => .ok []

/-- `zdt123_p_distance`, zdt.cpp 358-369 -/
noncomputable def pd123 (x : List ℝ) : Outcome ℝ := do
  let g ← sumLoop (x.length - 1) (tailTerm x) 0
  .ok (1 + 9 * g / ((x.length - 1 : Nat) : ℝ) - 1)

/-- `zdt4_p_distance`, zdt.cpp 371-382 -/
noncomputable def pd4 (x : List ℝ) : Outcome ℝ := do
  let g ← sumLoop (x.length - 1) (term4 x) 0
  .ok (1 + 10 * ((x.length - 1 : Nat) : ℝ) + g - 1)

/-- `zdt5_p_distance`, zdt.cpp 384-421 -/
noncomputable def pd5 (xd : List ℝ) : Outcome ℝ :=
  if xd.length < 30 then .throws .badAlloc
  else do
    let x := xd.map floorR
    let nv := (xd.length - 30) / 5 + 1
    let g ← sumLoop (nv - 1) (blockTerm x) 0
    .ok (g - (nv : ℝ) + 1)

/-- `zdt6_p_distance`, zdt.cpp 423-434 -/
noncomputable def pd6 (x : List ℝ) : Outcome ℝ := do
  let g ← sumLoop (x.length - 1) (tailTerm x) 0
  .ok (1 + 9 * (g / ((x.length - 1 : Nat) : ℝ)) ^ (0.25 : ℝ) - 1)

/-- `zdt::p_distance(const vector_double &)`, zdt.cpp 204-224 -/
noncomputable def pDistance (p : Zdt) (x : List ℝ) : Outcome ℝ :=
  match p.id with
  | 1 => pd123 x
  | 2 => pd123 x
  | 3 => pd123 x
  | 4 => pd4 x
  | 5 => pd5 x
  | 6 => pd6 x
  | _ => .ok 0

/-- `zdt::p_distance(const population &)`, zdt.cpp 179-187, on the decision vectors of the population. For an empty population the
code divides zero by zero and returns NaN; division by zero of reals gives 0 here, so nothing is to be concluded from the model in that
case. -/
noncomputable def pDistancePop (p : Zdt) (xs : List (List ℝ)) : Outcome ℝ := do
  let c ← xs.foldlM (fun c x => do let d ← pDistance p x; .ok (c + d)) (0 : ℝ)
  .ok (c / (xs.length : ℝ))

end Verif.Zdt
