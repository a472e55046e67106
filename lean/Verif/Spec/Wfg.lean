import Mathlib.Analysis.SpecialFunctions.Pow.Real
import Mathlib.Analysis.SpecialFunctions.Trigonometric.Basic
import Mathlib.Algebra.BigOperators.Intervals

/-!
# The WFG problems as published

Huband, Hingston, Barone, While: "A Review of Multiobjective Test Problems and a Scalable Test Problem Toolkit", IEEE Transactions on
Evolutionary Computation 10(5), 2006, the reference given in wfg.hpp. The transformation functions, which the paper (and the code) write
with floors, are written case by case here. Indices count from 0: `z i` is the `(i + 1)`-th normalised decision variable, in `[0, 1]`,
`m < M` the index of an objective. `n` is the number of variables, `k` that of the position related ones.
-/

set_option autoImplicit false

namespace Verif.Spec.Huband

open Finset

/-- shift, linear: down from 1 at 0 to 0 at `a`, up to 1 at 1 -/
noncomputable def sLinear (a y : ℝ) : ℝ := if y ≤ a then (a - y) / a else (y - a) / (1 - a)

/-- bias, flat region: the value is `a` from `b` to `c` -/
noncomputable def bFlat (a b c y : ℝ) : ℝ := if y < b then a * y / b else if y ≤ c then a else a + (1 - a) * (y - c) / (1 - c)

/-- the exponent of the parameter dependent bias: from `b` for `u = 0` to `c` for `u = 1` -/
noncomputable def expo (a b c u : ℝ) : ℝ := b + (c - b) * (if u ≤ 1 / 2 then 2 * u * a else a + (2 * u - 1) * (1 - a))

/-- bias, parameter dependent -/
noncomputable def bParam (a b c u y : ℝ) : ℝ := y ^ expo a b c u

/-- shift, deceptive: 0 at `a` only, 1 at distance `b` from it, down to `c` at both ends -/
noncomputable def sDecept (a b c y : ℝ) : ℝ :=
  if y < a - b then 1 - (1 - c) * (a - b - y) / (a - b)
  else if y ≤ a + b then |y - a| / b
  else 1 - (1 - c) * (y - a - b) / (1 - a - b)

/-- the distance from the global minimum of `sMulti`, from 0 at `c` to 1/2 at both ends -/
noncomputable def away (c y : ℝ) : ℝ := if y ≤ c then (c - y) / (2 * c) else (y - c) / (2 * (1 - c))

/-- shift, multi-modal with `a` minima -/
noncomputable def sMulti (a b c y : ℝ) : ℝ := (1 + Real.cos ((4 * a + 2) * Real.pi * (1 / 2 - away c y)) + 4 * b * away c y ^ 2) / (b + 2)

/-- reduction, weighted sum of the `len` values from `lo` on -/
noncomputable def wMean (w : Nat → ℝ) (y : Nat → ℝ) (lo len : Nat) : ℝ :=
  (∑ j ∈ range len, w (lo + j) * y (lo + j)) / ∑ j ∈ range len, w (lo + j)

/-- reduction with equal weights -/
noncomputable def mean (y : Nat → ℝ) (lo len : Nat) : ℝ := (∑ j ∈ range len, y (lo + j)) / (len : ℝ)

/-- `⌈a / 2⌉` -/
def half (a : Nat) : Nat := (a + 1) / 2

/-- reduction, non-separable of degree `a` -/
noncomputable def nonsep (a : Nat) (y : Nat → ℝ) (lo len : Nat) : ℝ :=
  (∑ j ∈ range len, (y (lo + j) + ∑ i ∈ range (a - 1), |y (lo + j) - y (lo + (j + 1 + i) % len)|)) /
    ((len : ℝ) / (a : ℝ) * (half a : ℝ) * (1 + 2 * (a : ℝ) - 2 * (half a : ℝ)))

/-- the shape functions that are products: `c 0 ⋯ c (M - 2 - m)` times `s (M - 1 - m)`, the latter for all objectives but the first -/
noncomputable def prodShape (M : Nat) (c s : Nat → ℝ) (m : Nat) : ℝ := (∏ j ∈ range (M - 1 - m), c j) * if m = 0 then 1 else s (M - 1 - m)

/-- linear shape -/
noncomputable def linear (M : Nat) (x : Nat → ℝ) : Nat → ℝ := prodShape M x (fun j => 1 - x j)

/-- convex shape -/
noncomputable def convex (M : Nat) (x : Nat → ℝ) : Nat → ℝ :=
  prodShape M (fun j => 1 - Real.cos (x j * (Real.pi / 2))) (fun j => 1 - Real.sin (x j * (Real.pi / 2)))

/-- concave shape -/
noncomputable def concave (M : Nat) (x : Nat → ℝ) : Nat → ℝ :=
  prodShape M (fun j => Real.sin (x j * (Real.pi / 2))) (fun j => Real.cos (x j * (Real.pi / 2)))

/-- mixed shape with five segments and overall linear -/
noncomputable def mixed (x : ℝ) : ℝ := 1 - x - Real.cos (10 * Real.pi * x + Real.pi / 2) / (10 * Real.pi)

/-- disconnected shape with five regions -/
noncomputable def disconnected (x : ℝ) : ℝ := 1 - x * Real.cos (5 * x * Real.pi) ^ 2

/-- the bias used by WFG7, WFG8 and WFG9 -/
noncomputable def bias (u y : ℝ) : ℝ := bParam (0.98 / 49.98) 0.02 50 u y

/-- the transition vector before the reduction to `M` values -/
noncomputable def transition (id n k : Nat) (z : Nat → ℝ) (i : Nat) : ℝ :=
  match id with
  | 1 => (if i < k then z i else bFlat 0.8 0.75 0.85 (sLinear 0.35 (z i))) ^ (0.02 : ℝ)
  | 4 => sMulti 30 10 0.35 (z i)
  | 5 => sDecept 0.35 0.001 0.05 (z i)
  | 7 => if i < k then bias (mean z (i + 1) (n - 1 - i)) (z i) else sLinear 0.35 (z i)
  | 8 => if i < k then z i else sLinear 0.35 (bias (mean z 0 i) (z i))
  | 9 =>
    if i < k then sDecept 0.35 0.001 0.05 (bias (mean z (i + 1) (n - 1 - i)) (z i))
    else sMulti 30 95 0.35 (if i < n - 1 then bias (mean z (i + 1) (n - 1 - i)) (z i) else z i)
  | _ => if i < k then z i else sLinear 0.35 (z i)

/-- the reduction of the values `lo`, ..., `lo + len - 1` of the transition vector `y` to one -/
noncomputable def reduction (id k : Nat) (y : Nat → ℝ) (lo len : Nat) : ℝ :=
  match id with
  | 1 => wMean (fun j => 2 * ((j : ℝ) + 1)) y lo len
  | 6 => nonsep len y lo len
  | 9 => nonsep len y lo len
  | 2 => if lo < k then mean y lo len else mean (fun j => nonsep 2 y (lo + 2 * (j - lo)) 2) lo (len / 2)
  | 3 => if lo < k then mean y lo len else mean (fun j => nonsep 2 y (lo + 2 * (j - lo)) 2) lo (len / 2)
  | _ => mean y lo len

/-- the final transition vector: one value for each block of `k / (M - 1)` position related variables, one for the distance related -/
noncomputable def final (id n M k : Nat) (z : Nat → ℝ) (m : Nat) : ℝ :=
  if m < M - 1 then reduction id k (transition id n k z) (m * (k / (M - 1))) (k / (M - 1))
  else reduction id k (transition id n k z) k (n - k)

/-- the degeneracy constants: all 1, but for WFG3, whose front is meant to be a line -/
noncomputable def degen (id m : Nat) : ℝ := if id = 3 ∧ m ≠ 0 then 0 else 1

/-- the underlying parameters -/
noncomputable def under (id M : Nat) (t : Nat → ℝ) (m : Nat) : ℝ :=
  if m < M - 1 then max (t (M - 1)) (degen id m) * (t m - 1 / 2) + 1 / 2 else t (M - 1)

/-- the shape of the front -/
noncomputable def front (id M : Nat) (x : Nat → ℝ) (m : Nat) : ℝ :=
  match id with
  | 1 => if m < M - 1 then convex M x m else mixed (x 0)
  | 2 => if m < M - 1 then convex M x m else disconnected (x 0)
  | 3 => linear M x m
  | _ => concave M x m

/-- the objectives from the final transition vector: distance plus scaled shape -/
noncomputable def objOf (id M : Nat) (t : Nat → ℝ) (m : Nat) : ℝ := t (M - 1) + 2 * ((m : ℝ) + 1) * front id M (under id M t) m

/-- the objectives of WFG`id` -/
noncomputable def objective (id n M k : Nat) (z : Nat → ℝ) (m : Nat) : ℝ := objOf id M (final id n M k z) m

end Verif.Spec.Huband
