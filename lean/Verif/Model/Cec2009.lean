import Verif.Base.Outcome
import Mathlib.Analysis.SpecialFunctions.Trigonometric.Basic
import Mathlib.Analysis.SpecialFunctions.Pow.Real

/-!
# Model of `cec2009`, src/problems/cec2009.cpp

Simplified: real numbers instead of doubles. A quotient with divisor 0 is `none` (not a number: where a sum is divided by the number of its
summands the sum of none is 0, and in the constraints of CF8, CF9, CF10 the sine of an infinite or undefined number is undefined). For a negative first
component, which is outside the bounds, `Real.sqrt` and `Real.rpow` stand for `std::sqrt` and `std::pow`. Reading past the end of the decision
vector is undefined behaviour. The local variables of the twenty functions are collected in `Sums`.
-/

set_option autoImplicit false

namespace Verif.Cec09

open Verif

/-- `nobj`, cec2009.cpp 62 -/
def nobjTable : List Nat := [2, 2, 2, 2, 2, 2, 2, 3, 3, 3]

/-- `nic`, cec2009.cpp 65 -/
def nicTable : List Nat := [1, 1, 1, 1, 1, 2, 2, 1, 1, 1]

/-- the object: `m_prob_id`, `m_is_constrained`, `m_dim` -/
structure Udp where
  probId : Nat
  constrained : Bool
  dim : Nat
  deriving DecidableEq

/-- the constructor, cec2009.cpp 82-95 -/
def construct (probId : Nat) (constrained : Bool) (dim : Nat) : Outcome Udp :=
  if probId < 1 ∨ probId > 10 then .throws .invalidArgument
  else if dim < 1 then .throws .invalidArgument
  else .ok ⟨probId, constrained, dim⟩

/-- `get_nic`, cec2009.cpp 103-110 -/
def nic (u : Udp) : Outcome Nat := if u.constrained then Outcome.get nicTable (u.probId - 1) else .ok 0

/-- `get_nobj`, cec2009.cpp 118-121 -/
def nobj (u : Udp) : Outcome Nat := Outcome.get nobjTable (u.probId - 1)

/-- [0, 1] for the first `k` components and [-r, r] for the others: the assignments in cec2009.cpp 136-205; a write past the end is undefined
behaviour -/
def fill (dim k : Nat) (r : ℝ) : Outcome (List ℝ × List ℝ) :=
  if dim < k then .ub
  else .ok (List.replicate k 0 ++ List.replicate (dim - k) (-r), List.replicate k 1 ++ List.replicate (dim - k) r)

/-- `get_bounds`, cec2009.cpp 129-208 -/
def bounds (u : Udp) : Outcome (List ℝ × List ℝ) :=
  let i := u.probId
  if u.constrained = false then
    if i = 1 ∨ i = 2 ∨ i = 5 ∨ i = 6 ∨ i = 7 then fill u.dim 1 1
    else if i = 3 then fill u.dim u.dim 0
    else if i = 4 then fill u.dim 1 2
    else if i = 8 ∨ i = 9 ∨ i = 10 then fill u.dim 2 2
    else .ok (List.replicate u.dim 0, List.replicate u.dim 0)
  else
    if i = 2 then fill u.dim 1 1
    else if i = 1 then fill u.dim u.dim 0
    else if i = 3 ∨ i = 4 ∨ i = 5 ∨ i = 6 ∨ i = 7 then fill u.dim 1 2
    else if i = 8 then fill u.dim 2 4
    else if i = 9 ∨ i = 10 then fill u.dim 2 2
    else .ok (List.replicate u.dim 0, List.replicate u.dim 0)

/-- `sgn`, cec2009.cpp 260-263 -/
noncomputable def sgn (v : ℝ) : ℝ := if v > 0 then 1 else -1

/-- `sum1`, `sum2`, `sum3`, `prod1`, `prod2`, `count1`, `count2`, `count3` of a function -/
structure Sums where
  s1 : ℝ
  s2 : ℝ
  s3 : ℝ
  p1 : ℝ
  p2 : ℝ
  c1 : Nat
  c2 : Nat
  c3 : Nat

/-- a summand and a factor for one of the groups -/
noncomputable def Sums.add (s : Sums) (k : Nat) (h p : ℝ) : Sums :=
  if k = 1 then { s with s1 := s.s1 + h, p1 := s.p1 * p, c1 := s.c1 + 1 }
  else if k = 2 then { s with s2 := s.s2 + h, p2 := s.p2 * p, c2 := s.c2 + 1 }
  else { s with s3 := s.s3 + h, c3 := s.c3 + 1 }

/-- the loop over `j` from `a` to `m_dim` of each function; `step` gives group, summand and factor -/
noncomputable def loop (a dim : Nat) (step : Nat → Outcome (Nat × ℝ × ℝ)) : Outcome Sums :=
  (List.range' a (dim + 1 - a)).foldlM (fun s j => do
    let (k, h, p) ← step j
    .ok (s.add k h p)) ⟨0, 0, 0, 1, 1, 0, 0, 0⟩

/-- `b + num / cnt` -/
noncomputable def over (b num : ℝ) (cnt : Nat) : Option ℝ := if cnt = 0 then none else some (b + num / cnt)

/-- the angle 6 π x₀ + j π / dim -/
noncomputable def angle (dim : Nat) (x0 : ℝ) (j : Nat) : ℝ := 6 * Real.pi * x0 + j * Real.pi / dim

/-- cec2009.cpp 295, 370, 394, 420, 447, 608, 634 -/
noncomputable def ySin (dim : Nat) (x : List ℝ) (j : Nat) : Outcome ℝ := do
  let xj ← Outcome.get x (j - 1)
  let x0 ← Outcome.get x 0
  .ok (xj - Real.sin (angle dim x0 j))

/-- cec2009.cpp 469, 495, 522, 744, 775, 806: with two free components -/
noncomputable def ySin2 (dim : Nat) (x : List ℝ) (j : Nat) : Outcome ℝ := do
  let xj ← Outcome.get x (j - 1)
  let x1 ← Outcome.get x 1
  let x0 ← Outcome.get x 0
  .ok (xj - 2 * x1 * Real.sin (2 * Real.pi * x0 + j * Real.pi / dim))

/-- cec2009.cpp 346, 553; the exponent is not a number for dimension 2, see `UF3` and `CF1` -/
noncomputable def yPow (dim : Nat) (x : List ℝ) (j : Nat) : Outcome ℝ := do
  let xj ← Outcome.get x (j - 1)
  let x0 ← Outcome.get x 0
  .ok (xj - x0 ^ ((0.5 : ℝ) * (1 + 3 * ((j : ℝ) - 2) / ((dim : ℝ) - 2))))

/-- the group of `j` for two objectives -/
def par2 (j : Nat) : Nat := if j % 2 = 0 then 2 else 1

/-- the group of `j` for three objectives -/
def par3 (j : Nat) : Nat := if j % 3 = 1 then 1 else if j % 3 = 2 then 2 else 3

/-- the factor `pj`, cec2009.cpp 347, 421, 609 -/
noncomputable def pCos (y : ℝ) (j : Nat) : ℝ := Real.cos (20 * y * Real.pi / Real.sqrt j)

/-- `2 y² - cos (4 π y) + 1` -/
noncomputable def hRast (y : ℝ) : ℝ := 2 * y * y - Real.cos (4 * Real.pi * y) + 1

/-- `4 y² - cos (8 π y) + 1` -/
noncomputable def hRast2 (y : ℝ) : ℝ := 4 * y * y - Real.cos (8 * Real.pi * y) + 1

/-- cec2009.cpp 287-307 -/
noncomputable def UF1 (dim : Nat) (x : List ℝ) : Outcome (List (Option ℝ)) := do
  let s ← loop 2 dim (fun j => do
    let y ← ySin dim x j
    .ok (par2 j, y * y, 1))
  let x0 ← Outcome.get x 0
  .ok [over x0 (2 * s.s1) s.c1, over (1 - Real.sqrt x0) (2 * s.s2) s.c2]

/-- cec2009.cpp 309-335 -/
noncomputable def UF2 (dim : Nat) (x : List ℝ) : Outcome (List (Option ℝ)) := do
  let s ← loop 2 dim (fun j => do
    let xj ← Outcome.get x (j - 1)
    let x0 ← Outcome.get x 0
    let w := 0.3 * x0 * (x0 * Real.cos (24 * Real.pi * x0 + 4 * j * Real.pi / dim) + 2)
    if j % 2 = 0 then
      let y := xj - w * Real.sin (angle dim x0 j)
      .ok (2, y * y, 1)
    else
      let y := xj - w * Real.cos (angle dim x0 j)
      .ok (1, y * y, 1))
  let x0 ← Outcome.get x 0
  .ok [over x0 (2 * s.s1) s.c1, over (1 - Real.sqrt x0) (2 * s.s2) s.c2]

/-- cec2009.cpp 337-360. For dimension 2 the exponent is 0 / 0; simplified: both objectives are then not a number, also for the power of 1. -/
noncomputable def UF3 (dim : Nat) (x : List ℝ) : Outcome (List (Option ℝ)) := do
  let s ← loop 2 dim (fun j => do
    let y ← yPow dim x j
    .ok (par2 j, y * y, pCos y j))
  let x0 ← Outcome.get x 0
  if dim = 2 then .ok [none, none]
  else .ok [over x0 (2 * (4 * s.s1 - 2 * s.p1 + 2)) s.c1, over (1 - Real.sqrt x0) (2 * (4 * s.s2 - 2 * s.p2 + 2)) s.c2]

/-- cec2009.cpp 362-382 -/
noncomputable def UF4 (dim : Nat) (x : List ℝ) : Outcome (List (Option ℝ)) := do
  let s ← loop 2 dim (fun j => do
    let y ← ySin dim x j
    .ok (par2 j, |y| / (1 + Real.exp (2 * |y|)), 1))
  let x0 ← Outcome.get x 0
  .ok [over x0 (2 * s.s1) s.c1, over (1 - x0 * x0) (2 * s.s2) s.c2]

/-- cec2009.cpp 384-407 -/
noncomputable def UF5 (dim : Nat) (x : List ℝ) : Outcome (List (Option ℝ)) := do
  let s ← loop 2 dim (fun j => do
    let y ← ySin dim x j
    .ok (par2 j, hRast y, 1))
  let x0 ← Outcome.get x 0
  let h := (0.5 / 10 + 0.1) * |Real.sin (2 * 10 * Real.pi * x0)|
  .ok [over (x0 + h) (2 * s.s1) s.c1, over (1 - x0 + h) (2 * s.s2) s.c2]

/-- cec2009.cpp 409-437 -/
noncomputable def UF6 (dim : Nat) (x : List ℝ) : Outcome (List (Option ℝ)) := do
  let s ← loop 2 dim (fun j => do
    let y ← ySin dim x j
    .ok (par2 j, y * y, pCos y j))
  let x0 ← Outcome.get x 0
  let h := 2 * (0.5 / 2 + 0.1) * Real.sin (2 * 2 * Real.pi * x0)
  let h := if h < 0 then 0 else h
  .ok [over (x0 + h) (2 * (4 * s.s1 - 2 * s.p1 + 2)) s.c1, over (1 - x0 + h) (2 * (4 * s.s2 - 2 * s.p2 + 2)) s.c2]

/-- cec2009.cpp 439-459 -/
noncomputable def UF7 (dim : Nat) (x : List ℝ) : Outcome (List (Option ℝ)) := do
  let s ← loop 2 dim (fun j => do
    let y ← ySin dim x j
    .ok (par2 j, y * y, 1))
  let x0 ← Outcome.get x 0
  let y := x0 ^ (0.2 : ℝ)
  .ok [over y (2 * s.s1) s.c1, over (1 - y) (2 * s.s2) s.c2]

/-- the objectives of UF8, UF10, CF8, CF9, CF10 from the sums, cec2009.cpp 481-483 -/
noncomputable def sphere (x0 x1 : ℝ) (s : Sums) : List (Option ℝ) :=
  [over (Real.cos (0.5 * Real.pi * x0) * Real.cos (0.5 * Real.pi * x1)) (2 * s.s1) s.c1,
   over (Real.cos (0.5 * Real.pi * x0) * Real.sin (0.5 * Real.pi * x1)) (2 * s.s2) s.c2,
   over (Real.sin (0.5 * Real.pi * x0)) (2 * s.s3) s.c3]

/-- cec2009.cpp 461-484 -/
noncomputable def UF8 (dim : Nat) (x : List ℝ) : Outcome (List (Option ℝ)) := do
  let s ← loop 3 dim (fun j => do
    let y ← ySin2 dim x j
    .ok (par3 j, y * y, 1))
  let x0 ← Outcome.get x 0
  let x1 ← Outcome.get x 1
  .ok (sphere x0 x1 s)

/-- cec2009.cpp 486-512 -/
noncomputable def UF9 (dim : Nat) (x : List ℝ) : Outcome (List (Option ℝ)) := do
  let s ← loop 3 dim (fun j => do
    let y ← ySin2 dim x j
    .ok (par3 j, y * y, 1))
  let x0 ← Outcome.get x 0
  let x1 ← Outcome.get x 1
  let y := (1 + 0.1) * (1 - 4 * (2 * x0 - 1) * (2 * x0 - 1))
  let y := if y < 0 then 0 else y
  .ok [over (0.5 * (y + 2 * x0) * x1) (2 * s.s1) s.c1, over (0.5 * (y - 2 * x0 + 2) * x1) (2 * s.s2) s.c2, over (1 - x1) (2 * s.s3) s.c3]

/-- cec2009.cpp 514-538 -/
noncomputable def UF10 (dim : Nat) (x : List ℝ) : Outcome (List (Option ℝ)) := do
  let s ← loop 3 dim (fun j => do
    let y ← ySin2 dim x j
    .ok (par3 j, hRast2 y, 1))
  let x0 ← Outcome.get x 0
  let x1 ← Outcome.get x 1
  .ok (sphere x0 x1 s)

/-- a constraint computed from the first two objectives -/
def from2 (f0 f1 : Option ℝ) (g : ℝ → ℝ → ℝ) : Option ℝ := do
  let a ← f0
  let b ← f1
  some (g a b)

/-- cec2009.cpp 543-567; for dimension 2 as `UF3` -/
noncomputable def CF1 (dim : Nat) (x : List ℝ) : Outcome (List (Option ℝ)) := do
  let s ← loop 2 dim (fun j => do
    let y ← yPow dim x j
    .ok (if j % 2 = 1 then 1 else 2, y * y, 1))
  let x0 ← Outcome.get x 0
  if dim = 2 then .ok [none, none, none]
  else
    let f0 := over x0 (2 * s.s1) s.c1
    let f1 := over (1 - x0) (2 * s.s2) s.c2
    .ok [f0, f1, from2 f0 f1 (fun a b => -(b + a - 1 * |Real.sin (10 * Real.pi * (a - b + 1))| - 1))]

/-- cec2009.cpp 569-595 -/
noncomputable def CF2 (dim : Nat) (x : List ℝ) : Outcome (List (Option ℝ)) := do
  let s ← loop 2 dim (fun j => do
    let xj ← Outcome.get x (j - 1)
    let x0 ← Outcome.get x 0
    if j % 2 = 1 then
      let y := xj - Real.sin (angle dim x0 j)
      .ok (1, y * y, 1)
    else
      let y := xj - Real.cos (angle dim x0 j)
      .ok (2, y * y, 1))
  let x0 ← Outcome.get x 0
  let f0 := over x0 (2 * s.s1) s.c1
  let f1 := over (1 - Real.sqrt x0) (2 * s.s2) s.c2
  .ok [f0, f1, from2 f0 f1 (fun a b =>
    let t := b + Real.sqrt a - 1 * Real.sin (2 * Real.pi * (Real.sqrt a - b + 1)) - 1
    Neg.neg (sgn t * |t| / (1 + Real.exp (4 * |t|))))]

/-- cec2009.cpp 597-626 -/
noncomputable def CF3 (dim : Nat) (x : List ℝ) : Outcome (List (Option ℝ)) := do
  let s ← loop 2 dim (fun j => do
    let y ← ySin dim x j
    .ok (par2 j, y * y, pCos y j))
  let x0 ← Outcome.get x 0
  let f0 := over x0 (2 * (4 * s.s1 - 2 * s.p1 + 2)) s.c1
  let f1 := over (1 - x0 * x0) (2 * (4 * s.s2 - 2 * s.p2 + 2)) s.c2
  .ok [f0, f1, from2 f0 f1 (fun a b => -(b + a * a - 1 * Real.sin (2 * Real.pi * (a * a - b + 1)) - 1))]

/-- the summand for `j = 2` of CF4 and CF5, cec2009.cpp 639 and 664 -/
noncomputable def hTwo (y : ℝ) : ℝ := if y < 1.5 - 0.75 * Real.sqrt 2 then |y| else 0.125 + (y - 1) * (y - 1)

/-- cec2009.cpp 628-650 -/
noncomputable def CF4 (dim : Nat) (x : List ℝ) : Outcome (List (Option ℝ)) := do
  let s ← loop 2 dim (fun j => do
    let y ← ySin dim x j
    if j % 2 = 1 then .ok (1, y * y, 1)
    else if j = 2 then .ok (2, hTwo y, 1)
    else .ok (2, y * y, 1))
  let x0 ← Outcome.get x 0
  let x1 ← Outcome.get x 1
  let t := x1 - Real.sin (6 * x0 * Real.pi + 2 * Real.pi / dim) - 0.5 * x0 + 0.25
  .ok [some (x0 + s.s1), some (1 - x0 + s.s2), some (-(sgn t * |t| / (1 + Real.exp (4 * |t|))))]

/-- cec2009.cpp 652-675 -/
noncomputable def CF5 (dim : Nat) (x : List ℝ) : Outcome (List (Option ℝ)) := do
  let s ← loop 2 dim (fun j => do
    let xj ← Outcome.get x (j - 1)
    let x0 ← Outcome.get x 0
    if j % 2 = 1 then
      let y := xj - 0.8 * x0 * Real.cos (angle dim x0 j)
      .ok (1, hRast y, 1)
    else
      let y := xj - 0.8 * x0 * Real.sin (angle dim x0 j)
      if j = 2 then .ok (2, hTwo y, 1)
      else .ok (2, hRast y, 1))
  let x0 ← Outcome.get x 0
  let x1 ← Outcome.get x 1
  .ok [some (x0 + s.s1), some (1 - x0 + s.s2),
    some (-(x1 - 0.8 * x0 * Real.sin (6 * x0 * Real.pi + 2 * Real.pi / dim) - 0.5 * x0 + 0.25))]

/-- the root with sign in the constraints of CF6 and CF7, cec2009.cpp 695-698 -/
noncomputable def sgnRoot (v : ℝ) : ℝ := sgn v * Real.sqrt |v|

/-- cec2009.cpp 677-702 -/
noncomputable def CF6 (dim : Nat) (x : List ℝ) : Outcome (List (Option ℝ)) := do
  let s ← loop 2 dim (fun j => do
    let xj ← Outcome.get x (j - 1)
    let x0 ← Outcome.get x 0
    if j % 2 = 1 then
      let y := xj - 0.8 * x0 * Real.cos (angle dim x0 j)
      .ok (1, y * y, 1)
    else
      let y := xj - 0.8 * x0 * Real.sin (angle dim x0 j)
      .ok (2, y * y, 1))
  let x0 ← Outcome.get x 0
  let x1 ← Outcome.get x 1
  let x3 ← Outcome.get x 3
  .ok [some (x0 + s.s1), some ((1 - x0) * (1 - x0) + s.s2),
    some (-(x1 - 0.8 * x0 * Real.sin (6 * x0 * Real.pi + 2 * Real.pi / dim) - sgnRoot ((x0 - 0.5) * (1 - x0)))),
    some (-(x3 - 0.8 * x0 * Real.sin (6 * x0 * Real.pi + 4 * Real.pi / dim) - sgnRoot (0.25 * Real.sqrt (1 - x0) - 0.5 * (1 - x0))))]

/-- cec2009.cpp 704-732 -/
noncomputable def CF7 (dim : Nat) (x : List ℝ) : Outcome (List (Option ℝ)) := do
  let s ← loop 2 dim (fun j => do
    let xj ← Outcome.get x (j - 1)
    let x0 ← Outcome.get x 0
    if j % 2 = 1 then
      let y := xj - Real.cos (angle dim x0 j)
      .ok (1, hRast y, 1)
    else
      let y := xj - Real.sin (angle dim x0 j)
      if j = 2 ∨ j = 4 then .ok (2, y * y, 1)
      else .ok (2, hRast y, 1))
  let x0 ← Outcome.get x 0
  let x1 ← Outcome.get x 1
  let x3 ← Outcome.get x 3
  .ok [some (x0 + s.s1), some ((1 - x0) * (1 - x0) + s.s2),
    some (-(x1 - Real.sin (6 * x0 * Real.pi + 2 * Real.pi / dim) - sgnRoot ((x0 - 0.5) * (1 - x0)))),
    some (-(x3 - Real.sin (6 * x0 * Real.pi + 4 * Real.pi / dim) - sgnRoot (0.25 * Real.sqrt (1 - x0) - 0.5 * (1 - x0))))]

/-- the constraint of CF8, CF9 and CF10, cec2009.cpp 760-762, 791-793 and 823-825, from the three objectives; `wave` is the factor times the sine or its absolute value -/
noncomputable def from3 (f : List (Option ℝ)) (wave : ℝ → ℝ) : List (Option ℝ) :=
  match f with
  | [some a, some b, some c] =>
    f ++ [if 1 - c * c = 0 then none
      else some (-((a * a + b * b) / (1 - c * c) - wave (Real.sin (2 * Real.pi * ((a * a - b * b) / (1 - c * c) + 1))) - 1))]
  | f => f ++ [none]

/-- cec2009.cpp 734-763 -/
noncomputable def CF8 (dim : Nat) (x : List ℝ) : Outcome (List (Option ℝ)) := do
  let f ← UF8 dim x
  .ok (from3 f (fun v => 4 * |v|))

/-- cec2009.cpp 765-794 -/
noncomputable def CF9 (dim : Nat) (x : List ℝ) : Outcome (List (Option ℝ)) := do
  let f ← UF8 dim x
  .ok (from3 f (fun v => 3 * v))

/-- cec2009.cpp 796-826 -/
noncomputable def CF10 (dim : Nat) (x : List ℝ) : Outcome (List (Option ℝ)) := do
  let f ← UF10 dim x
  .ok (from3 f (fun v => 1 * v))

/-- `s_u_ptr`, cec2009.cpp 74-76 -/
noncomputable def uTable : List (Nat → List ℝ → Outcome (List (Option ℝ))) := [UF1, UF2, UF3, UF4, UF5, UF6, UF7, UF8, UF9, UF10]

/-- `s_c_ptr`, cec2009.cpp 78-80 -/
noncomputable def cTable : List (Nat → List ℝ → Outcome (List (Option ℝ))) := [CF1, CF2, CF3, CF4, CF5, CF6, CF7, CF8, CF9, CF10]

/-- `fitness` and `fitness_impl`, cec2009.cpp 223-230 and 268-275 -/
noncomputable def fitness (u : Udp) (x : List ℝ) : Outcome (List (Option ℝ)) := do
  let f ← Outcome.get (if u.constrained then cTable else uTable) (u.probId - 1)
  f u.dim x

end Verif.Cec09
