import Verif.Model.Dtlz

/-!
# Model of the WFG problem suite, src/problems/wfg.cpp

Simplified: real numbers instead of doubles (no rounding, no overflow); `std::pow` is the real power, the code reaches it with a
non-negative base and a positive exponent for decision vectors in the bounds. An access out of range is undefined behaviour. A division
by zero, which the real numbers would hide, does not occur: the divisors are the upper bounds, numbers of a non-empty block, sums of
positive weights and constants. The products `i * m_dim_k` of the block limits are those of unbounded numbers. The vectors `t_1`, `t_2`,
... are written together with `y` and read through it only: one vector is kept.
-/

set_option autoImplicit false

namespace Verif.Wfg

open Verif Verif.Analytic Verif.Dtlz

/-- the members of `wfg`, wfg.hpp 113-117 -/
structure Wfg where
  id : Nat
  dim : Nat
  fdim : Nat
  k : Nat
  deriving DecidableEq

/-- the constructor, wfg.cpp 59-93 -/
def ctor (id dim fdim k : Nat) : Outcome Wfg :=
  if id = 0 ∨ id > 9 then .throws .invalidArgument
  else if dim < 1 then .throws .invalidArgument
  else if fdim < 2 then .throws .invalidArgument
  else if k ≥ dim ∨ k < 1 ∨ k % (fdim - 1) ≠ 0 then .throws .invalidArgument
  else if (id = 2 ∨ id = 3) ∧ (dim - k) % 2 ≠ 0 then .throws .invalidArgument
  else .ok ⟨id, dim, fdim, k⟩

/-- `2.0 * (static_cast<double>(i) + 1)`, wfg.cpp 141 (upper bounds), 321 (`s_parameter`), 363 (weights) -/
noncomputable def twice (i : Nat) : ℝ := 2 * ((i : ℝ) + 1)

/-- `wfg::get_bounds`, wfg.cpp 137-145 -/
noncomputable def bounds (p : Wfg) : List ℝ × List ℝ := (List.replicate p.dim 0, (List.range p.dim).map twice)

/-- `for (i = a; i < a + n; ++i) y[i] = f(y, i)`: the loops that read the vector they write -/
def stepLoop (a n : Nat) (f : List ℝ → Nat → Outcome ℝ) (y : List ℝ) : Outcome (List ℝ) :=
  (List.range' a n).foldlM (fun y i => do let t ← f y i; Outcome.set y i t) y

/-- `x[i] / get_bounds().second[i]`, wfg.cpp 326 -/
noncomputable def normAt (p : Wfg) (x : List ℝ) (i : Nat) : Outcome ℝ := do
  let a ← Outcome.get x i
  let b ← Outcome.get (bounds p).2 i
  .ok (a / b)

/-- `x_norm`, wfg.cpp 325-327 and the same lines of the other problems -/
noncomputable def normalise (p : Wfg) (x : List ℝ) : Outcome (List ℝ) := fillLoop 0 p.dim (normAt p x) (List.replicate p.dim 0)

/-! ## shape functions -/

/-- `g * (1.0 - parameters[m_dim_obj - m])` -/
noncomputable def linearMid (p : Wfg) (v : List ℝ) (m : Nat) : Outcome ℝ := do
  let g ← mulLoop (p.fdim - m) (Outcome.get v) 1
  let a ← Outcome.get v (p.fdim - m)
  .ok (g * (1 - a))

/-- `wfg::linear`, wfg.cpp 161-177 -/
noncomputable def linear (p : Wfg) (v : List ℝ) (m : Nat) : Outcome ℝ :=
  if m = 1 then mulLoop (p.fdim - 1) (Outcome.get v) 1
  else if m > 1 ∧ m < p.fdim then linearMid p v m
  else do
    let a ← Outcome.get v 0
    .ok (1 - a)

/-- `1.0 - std::cos(parameters[i] * pi / 2.0)`, wfg.cpp 184 -/
noncomputable def oneMinusCos (v : List ℝ) (i : Nat) : Outcome ℝ := do
  let a ← Outcome.get v i
  .ok (1 - Real.cos (a * Real.pi / 2))

/-- `wfg::convex`, wfg.cpp 179-193 -/
noncomputable def convex (p : Wfg) (v : List ℝ) (m : Nat) : Outcome ℝ :=
  if m = 1 then mulLoop (p.fdim - 1) (oneMinusCos v) 1
  else do
    let g ← mulLoop (p.fdim - m) (oneMinusCos v) 1
    let a ← Outcome.get v (p.fdim - m)
    .ok (g * (1 - Real.sin (a * Real.pi / 2)))

/-- `std::sin(parameters[i] * pi / 2.0)`, wfg.cpp 200 -/
noncomputable def sinOf (v : List ℝ) (i : Nat) : Outcome ℝ := do
  let a ← Outcome.get v i
  .ok (Real.sin (a * Real.pi / 2))

/-- `g * std::cos(parameters[m_dim_obj - m] * pi / 2.0)`, wfg.cpp 204-207 -/
noncomputable def concaveMid (p : Wfg) (v : List ℝ) (m : Nat) : Outcome ℝ := do
  let g ← mulLoop (p.fdim - m) (sinOf v) 1
  let a ← Outcome.get v (p.fdim - m)
  .ok (g * Real.cos (a * Real.pi / 2))

/-- `wfg::concave`, wfg.cpp 195-211 -/
noncomputable def concave (p : Wfg) (v : List ℝ) (m : Nat) : Outcome ℝ :=
  if m = 1 then mulLoop (p.fdim - 1) (sinOf v) 1
  else if m > 1 ∧ m < p.fdim then concaveMid p v m
  else do
    let a ← Outcome.get v 0
    .ok (Real.cos (a * Real.pi / 2))

/-- `wfg::mixed`, wfg.cpp 213-220 -/
noncomputable def mixed (a alpha deg : ℝ) : ℝ :=
  (1 - a - Real.cos (2 * deg * Real.pi * a + Real.pi / 2) / (2 * deg * Real.pi)) ^ alpha

/-- `wfg::disconnected`, wfg.cpp 222-228 -/
noncomputable def disconnected (a alpha beta deg : ℝ) : ℝ := 1 - a ^ alpha * Real.cos (deg * a ^ beta * Real.pi) ^ 2

/-! ## transformation functions -/

/-- `std::floor` -/
noncomputable def flr (a : ℝ) : ℝ := ((⌊a⌋ : ℤ) : ℝ)

/-- `wfg::b_poly`, wfg.cpp 231-234 -/
noncomputable def bPoly (y alpha : ℝ) : ℝ := y ^ alpha

/-- `wfg::b_flat`, wfg.cpp 236-241 -/
noncomputable def bFlat (y a b c : ℝ) : ℝ := a + min 0 (flr (y - b)) * a * (b - y) / b - min 0 (flr (c - y)) * (1 - a) * (y - c) / (1 - c)

/-- `wfg::b_param`, wfg.cpp 243-247 -/
noncomputable def bParam (y u a b c : ℝ) : ℝ := y ^ (b + (c - b) * (a - (1 - 2 * u) * |flr (0.5 - u) + a|))

/-- `wfg::s_linear`, wfg.cpp 249-252 -/
noncomputable def sLinear (y a : ℝ) : ℝ := |y - a| / |flr (a - y) + a|

/-- `wfg::s_decept`, wfg.cpp 254-262 -/
noncomputable def sDecept (y a b c : ℝ) : ℝ :=
  1 + (|y - a| - b) * ((flr (y - a + b) * (1 - c + (a - b) / b)) / (a - b) + (flr (a + b - y) * (1 - c + (1 - a - b) / b)) / (1 - a - b)
    + 1 / b)

/-- `wfg::s_multi`, wfg.cpp 264-271 -/
noncomputable def sMulti (y a b c : ℝ) : ℝ :=
  (1 + Real.cos ((4 * a + 2) * Real.pi * (0.5 - |y - c| / (2 * (flr (c - y) + c)))) + 4 * b * (|y - c| / (2 * (flr (c - y) + c))) ^ 2) / (b + 2)

/-- `weights[i] * y_vec[i]`, wfg.cpp 278 -/
noncomputable def sumTerm (y w : List ℝ) (i : Nat) : Outcome ℝ := do
  let b ← Outcome.get w i
  let a ← Outcome.get y i
  .ok (b * a)

/-- `wfg::r_sum`, wfg.cpp 273-282; the two sums are kept by one loop there -/
noncomputable def rSum (y w : List ℝ) : Outcome ℝ := do
  let g1 ← sumLoop y.length (sumTerm y w) 0
  let g2 ← sumLoop y.length (Outcome.get w) 0
  .ok (g1 / g2)

/-- `std::abs(y_vec[j] - y_vec[(1 + j + i) % len])`, wfg.cpp 295 -/
noncomputable def nonsepTerm (y : List ℝ) (j i : Nat) : Outcome ℝ := do
  let a ← Outcome.get y j
  let b ← Outcome.get y ((1 + j + i) % y.length)
  .ok |a - b|

/-- the body of the outer loop, wfg.cpp 293-296; `i <= a_par - 2` are `a_par - 1` rounds, as `a_par` is at least 2 here -/
noncomputable def nonsepStep (y : List ℝ) (a : Nat) (g : ℝ) (j : Nat) : Outcome ℝ := do
  let b ← Outcome.get y j
  sumLoop (a - 1) (nonsepTerm y j) (g + b)

/-- the first factor `std::ceil(a_par / 2)` of the divisor, wfg.cpp 299: the quotient of two integers -/
def ceilInt (a : Nat) : Nat := a / 2

/-- `std::ceil(static_cast<double>(a_par) / 2.0)`, wfg.cpp 300 -/
noncomputable def ceilHalf (a : Nat) : ℝ := ((⌈(a : ℝ) / 2⌉ : ℤ) : ℝ)

/-- `wfg::r_nonsep`, wfg.cpp 284-302 -/
noncomputable def rNonsep (y : List ℝ) (a : Nat) : Outcome ℝ :=
  if a = 1 then rSum y (List.replicate y.length 1)
  else do
    let g ← (List.range y.length).foldlM (nonsepStep y a) 0
    .ok (g / ((y.length : ℝ) / (a : ℝ) * (ceilInt a : ℝ) * (1 + 2 * (a : ℝ) - 2 * ceilHalf a)))

/-! ## the parts the nine problems share -/

/-- `first_input`: `y[head]` to `y[tail - 1]`, wfg.cpp 361-365 -/
def slice (y : List ℝ) (head tail : Nat) : Outcome (List ℝ) := (List.range' head (tail - head)).mapM (Outcome.get y)

/-- `r_sum` of a block with the weights `2 * (j + 1)`, wfg.cpp 358-367 and 371-376 -/
noncomputable def blockWeighted (y : List ℝ) (head tail : Nat) : Outcome ℝ := do
  let u ← slice y head tail
  rSum u ((List.range' head (tail - head)).map twice)

/-- `r_sum` of a block with the weights 1, wfg.cpp 451-458 -/
noncomputable def blockMean (y : List ℝ) (head tail : Nat) : Outcome ℝ := do
  let u ← slice y head tail
  rSum u (List.replicate (tail - head) 1)

/-- `r_nonsep` of a block, wfg.cpp 761-767 -/
noncomputable def blockNonsep (y : List ℝ) (a head tail : Nat) : Outcome ℝ := do
  let u ← slice y head tail
  rNonsep u a

/-- the last transformation: `t[i - 1]` is computed from the position related block `(i - 1) * m_dim_k / (m_dim_obj - 1)` to
`i * m_dim_k / (m_dim_obj - 1)` for `i` from 1 to `m_dim_obj - 1`, `t[m_dim_obj - 1]` from the distance related values, wfg.cpp 354-376.
The vector has `size` elements (`m_dim_dvs` in wfg4 and wfg5). The index here is that of the element written. -/
noncomputable def reduce (p : Wfg) (size : Nat) (pos : Nat → Nat → Outcome ℝ) (dist : Outcome ℝ) : Outcome (List ℝ) := do
  let t ← fillLoop 0 (p.fdim - 1) (fun i => pos (i * p.k / (p.fdim - 1)) ((i + 1) * p.k / (p.fdim - 1))) (List.replicate size 0)
  let d ← dist
  Outcome.set t (p.fdim - 1) d

/-- `std::max(t[m_dim_obj - 1], 1.0) * (t[i] - 0.5) + 0.5`, wfg.cpp 380; the second argument of `std::max` is `deg i` -/
noncomputable def paramAt (p : Wfg) (deg : Nat → ℝ) (t : List ℝ) (i : Nat) : Outcome ℝ := do
  let d ← Outcome.get t (p.fdim - 1)
  let a ← Outcome.get t i
  .ok (max d (deg i) * (a - 0.5) + 0.5)

/-- `parameters`, wfg.cpp 379-382 -/
noncomputable def params (p : Wfg) (deg : Nat → ℝ) (t : List ℝ) : Outcome (List ℝ) := do
  let v ← fillLoop 0 p.fdim (paramAt p deg t) (List.replicate p.fdim 0)
  let d ← Outcome.get t (p.fdim - 1)
  Outcome.set v (p.fdim - 1) d

/-- `parameters[m_dim_obj - 1] + s_parameter[i] * shape_fun[i]`, wfg.cpp 393 -/
noncomputable def objAt (p : Wfg) (v h : List ℝ) (i : Nat) : Outcome ℝ := do
  let d ← Outcome.get v (p.fdim - 1)
  let a ← Outcome.get h i
  .ok (d + twice i * a)

/-- the fitness from the parameters and the shape functions, wfg.cpp 391-395 -/
noncomputable def objectives (p : Wfg) (v h : List ℝ) : Outcome (List ℝ) := fillLoop 0 p.fdim (objAt p v h) (List.replicate p.fdim 0)

/-- all shape functions of one kind, wfg.cpp 576-578 and 644-646 -/
noncomputable def shapes (p : Wfg) (f : Nat → Outcome ℝ) : Outcome (List ℝ) :=
  fillLoop 0 p.fdim (fun i => f (i + 1)) (List.replicate p.fdim 0)

/-- convex shape functions and another last one, wfg.cpp 385-388 and 475-478 -/
noncomputable def shapesLast (p : Wfg) (v : List ℝ) (last : ℝ → ℝ) : Outcome (List ℝ) := do
  let h ← fillLoop 0 (p.fdim - 1) (fun i => convex p v (i + 1)) (List.replicate p.fdim 0)
  let a ← Outcome.get v 0
  Outcome.set h (p.fdim - 1) (last a)

/-- `i < m_dim_k ? y[i] : f(y[i])`, the body of the loops at wfg.cpp 331-338, 340-347, 422-429, 748-755 and 837-844 -/
noncomputable def distAt (p : Wfg) (f : ℝ → ℝ) (y : List ℝ) (i : Nat) : Outcome ℝ := do
  let a ← Outcome.get y i
  if i < p.k then .ok a else .ok (f a)

/-- `f(y[i])` -/
noncomputable def applyAt (f : ℝ → ℝ) (y : List ℝ) (i : Nat) : Outcome ℝ := do
  let a ← Outcome.get y i
  .ok (f a)

/-- the first transformation of wfg1, wfg2, wfg3 and wfg6, wfg.cpp 331-338 -/
noncomputable def linearTail (p : Wfg) (xn : List ℝ) : Outcome (List ℝ) :=
  fillLoop 0 p.dim (distAt p (fun a => sLinear a 0.35) xn) (List.replicate p.dim 0)

/-! ## the nine problems -/

/-- `y` of wfg1 after `t_1`, `t_2` and `t_3`, wfg.cpp 331-352 -/
noncomputable def vec1 (p : Wfg) (xn : List ℝ) : Outcome (List ℝ) := do
  let y ← linearTail p xn
  let y ← stepLoop 0 p.dim (distAt p (fun a => bFlat a 0.8 0.75 0.85)) y
  stepLoop 0 p.dim (applyAt (fun a => bPoly a 0.02)) y

/-- `wfg::wfg1_fitness`, wfg.cpp 304-396 -/
noncomputable def fit1 (p : Wfg) (x : List ℝ) : Outcome (List ℝ) := do
  let xn ← normalise p x
  let y ← vec1 p xn
  let t ← reduce p p.fdim (blockWeighted y) (blockWeighted y p.k p.dim)
  let v ← params p (fun _ => 1) t
  let h ← shapesLast p v (fun a => mixed a 1 5)
  objectives p v h

/-- the body of the second loop of wfg2 and wfg3, wfg.cpp 431-446, for the element with index `i` (the loop counts from 1) -/
noncomputable def pairAt (p : Wfg) (y : List ℝ) (i : Nat) : Outcome ℝ :=
  if i + 1 ≤ p.k then Outcome.get y i
  else blockNonsep y 2 (p.k + 2 * (i + 1 - p.k) - 2) (p.k + 2 * (i + 1 - p.k))

/-- `y` of wfg2 and wfg3 after `t_1` and `t_2`, wfg.cpp 422-446 and 512-536 -/
noncomputable def vec23 (p : Wfg) (xn : List ℝ) : Outcome (List ℝ) := do
  let y ← linearTail p xn
  stepLoop 0 (p.k + (p.dim - p.k) / 2) (pairAt p) y

/-- `t_3` of wfg2 and wfg3, wfg.cpp 448-467 and 538-557 -/
noncomputable def reduce23 (p : Wfg) (y : List ℝ) : Outcome (List ℝ) :=
  reduce p p.fdim (blockMean y) (blockMean y p.k (p.k + (p.dim - p.k) / 2))

/-- `wfg::wfg2_fitness`, wfg.cpp 398-486 -/
noncomputable def fit2 (p : Wfg) (x : List ℝ) : Outcome (List ℝ) := do
  let xn ← normalise p x
  let y ← vec23 p xn
  let t ← reduce23 p y
  let v ← params p (fun _ => 1) t
  let h ← shapesLast p v (fun a => disconnected a 1 1 5)
  objectives p v h

/-- the second argument of `std::max` in wfg3, wfg.cpp 567-571 -/
noncomputable def deg3 (i : Nat) : ℝ := if i = 0 then 1 else 0

/-- `wfg::wfg3_fitness`, wfg.cpp 488-585. The parameters computed at 560-563 are overwritten at 566-573 before they are read. -/
noncomputable def fit3 (p : Wfg) (x : List ℝ) : Outcome (List ℝ) := do
  let xn ← normalise p x
  let y ← vec23 p xn
  let t ← reduce23 p y
  let v ← params p deg3 t
  let h ← shapes p (linear p v)
  objectives p v h

/-- what wfg4 to wfg9 do with `t`: parameters, concave shape functions, fitness, wfg.cpp 637-653 -/
noncomputable def concaveFit (p : Wfg) (t : List ℝ) : Outcome (List ℝ) := do
  let v ← params p (fun _ => 1) t
  let h ← shapes p (concave p v)
  objectives p v h

/-- the last transformation of wfg4, wfg5, wfg7 and wfg8 (means), wfg.cpp 615-635 -/
noncomputable def reduceMean (p : Wfg) (size : Nat) (y : List ℝ) : Outcome (List ℝ) := reduce p size (blockMean y) (blockMean y p.k p.dim)

/-- the last transformation of wfg6 and wfg9, wfg.cpp 757-776 and 1026-1043 -/
noncomputable def reduceNonsep (p : Wfg) (y : List ℝ) : Outcome (List ℝ) :=
  reduce p p.fdim (blockNonsep y (p.k / (p.fdim - 1))) (blockNonsep y (p.dim - p.k) p.k p.dim)

/-- `wfg::wfg4_fitness`, wfg.cpp 587-654 -/
noncomputable def fit4 (p : Wfg) (x : List ℝ) : Outcome (List ℝ) := do
  let xn ← normalise p x
  let y ← fillLoop 0 p.dim (applyAt (fun a => sMulti a 30 10 0.35) xn) (List.replicate p.dim 0)
  let t ← reduceMean p p.dim y
  concaveFit p t

/-- `wfg::wfg5_fitness`, wfg.cpp 656-723 -/
noncomputable def fit5 (p : Wfg) (x : List ℝ) : Outcome (List ℝ) := do
  let xn ← normalise p x
  let y ← fillLoop 0 p.dim (applyAt (fun a => sDecept a 0.35 0.001 0.05) xn) (List.replicate p.dim 0)
  let t ← reduceMean p p.dim y
  concaveFit p t

/-- `wfg::wfg6_fitness`, wfg.cpp 725-795 -/
noncomputable def fit6 (p : Wfg) (x : List ℝ) : Outcome (List ℝ) := do
  let xn ← normalise p x
  let y ← linearTail p xn
  let t ← reduceNonsep p y
  concaveFit p t

/-- `b_param` of `x_norm[i]` and the mean of the later values, wfg.cpp 822-829 and 1003-1010 -/
noncomputable def laterParam (n : Nat) (xn : List ℝ) (i : Nat) : Outcome ℝ := do
  let u ← blockMean xn (i + 1) n
  let a ← Outcome.get xn i
  .ok (bParam a u (0.98 / 49.98) 0.02 50)

/-- `y` of wfg7 after `t_1` and `t_2`, wfg.cpp 821-844 -/
noncomputable def vec7 (p : Wfg) (xn : List ℝ) : Outcome (List ℝ) := do
  let y ← fillLoop 0 p.k (laterParam p.dim xn) (List.replicate p.dim 0)
  let y ← fillLoop p.k (p.dim - p.k) (Outcome.get xn) y
  stepLoop 0 p.dim (distAt p (fun a => sLinear a 0.35)) y

/-- `wfg::wfg7_fitness`, wfg.cpp 797-886 -/
noncomputable def fit7 (p : Wfg) (x : List ℝ) : Outcome (List ℝ) := do
  let xn ← normalise p x
  let y ← vec7 p xn
  let t ← reduceMean p p.fdim y
  concaveFit p t

/-- `b_param` of `x_norm[i]` and the mean of the earlier elements of `y`, wfg.cpp 917-922. `y[j]` is what the loop has written before. -/
noncomputable def earlierParam (xn y : List ℝ) (i : Nat) : Outcome ℝ := do
  let u ← blockMean y 0 i
  let a ← Outcome.get xn i
  .ok (bParam a u (0.98 / 49.98) 0.02 50)

/-- `y` of wfg8 after `t_1` and `t_2`, wfg.cpp 912-933 -/
noncomputable def vec8 (p : Wfg) (xn : List ℝ) : Outcome (List ℝ) := do
  let y ← fillLoop 0 p.k (Outcome.get xn) (List.replicate p.dim 0)
  let y ← stepLoop p.k (p.dim - p.k) (earlierParam xn) y
  stepLoop 0 p.dim (distAt p (fun a => sLinear a 0.35)) y

/-- `wfg::wfg8_fitness`, wfg.cpp 888-975 -/
noncomputable def fit8 (p : Wfg) (x : List ℝ) : Outcome (List ℝ) := do
  let xn ← normalise p x
  let y ← vec8 p xn
  let t ← reduceMean p p.fdim y
  concaveFit p t

/-- the body of the second loop of wfg9, wfg.cpp 1016-1024 -/
noncomputable def mixAt (p : Wfg) (y : List ℝ) (i : Nat) : Outcome ℝ := do
  let a ← Outcome.get y i
  if i < p.k then .ok (sDecept a 0.35 0.001 0.05) else .ok (sMulti a 30 95 0.35)

/-- `y` of wfg9 after `t_1` and `t_2`, wfg.cpp 1002-1024 -/
noncomputable def vec9 (p : Wfg) (xn : List ℝ) : Outcome (List ℝ) := do
  let y ← fillLoop 0 (p.dim - 1) (laterParam p.dim xn) (List.replicate p.dim 0)
  let a ← Outcome.get xn (p.dim - 1)
  let y ← Outcome.set y (p.dim - 1) a
  stepLoop 0 p.dim (mixAt p) y

/-- `wfg::wfg9_fitness`, wfg.cpp 977-1062 -/
noncomputable def fit9 (p : Wfg) (x : List ℝ) : Outcome (List ℝ) := do
  let xn ← normalise p x
  let y ← vec9 p xn
  let t ← reduceNonsep p y
  concaveFit p t

/-- `wfg::fitness`, wfg.cpp 96-129 -/
noncomputable def fitness (p : Wfg) (x : List ℝ) : Outcome (List ℝ) :=
  match p.id with
  | 1 => fit1 p x
  | 2 => fit2 p x
  | 3 => fit3 p x
  | 4 => fit4 p x
  | 5 => fit5 p x
  | 6 => fit6 p x
  | 7 => fit7 p x
  | 8 => fit8 p x
  | 9 => fit9 p x
  | _ => .ok []

end Verif.Wfg
