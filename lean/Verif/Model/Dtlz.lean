import Verif.Model.Analytic
import Mathlib.Analysis.SpecialFunctions.Pow.Real

/-!
# Model of the DTLZ problem suite, src/problems/dtlz.cpp

Simplified: real numbers instead of doubles (no rounding, no overflow); `std::pow(x, m_alpha)` with an unsigned exponent is the natural
power, `std::pow(x, 0.1)` the real one. An access out of range is undefined behaviour. `x_M` is built by a loop of `push_back` in the code,
here it is the list without the first `fdim - 1` elements.
-/

set_option autoImplicit false

namespace Verif.Dtlz

open Verif Verif.Analytic

/-- the members of `dtlz` -/
structure Dtlz where
  id : Nat
  dim : Nat
  fdim : Nat
  alpha : Nat

/-- `std::numeric_limits<size_type>::max() / 3` for a 64 bit `size_type` -/
def sizeCap : Nat := (2 ^ 64 - 1) / 3

/-- the constructor, dtlz.cpp 53-74 -/
def ctor (id dim fdim alpha : Nat) : Outcome Dtlz :=
  if id = 0 ∨ id > 7 then .throws .invalidArgument
  else if fdim < 2 then .throws .invalidArgument
  else if fdim > sizeCap then .throws .invalidArgument
  else if dim > sizeCap then .throws .invalidArgument
  else if dim ≤ fdim then .throws .invalidArgument
  else .ok ⟨id, dim, fdim, alpha⟩

/-- the summand of `g13_func`, dtlz.cpp 211 -/
noncomputable def g13Term (x : List ℝ) (i : Nat) : Outcome ℝ := do
  let a ← Outcome.get x i
  .ok ((a - 0.5) ^ 2 - Real.cos (20 * Real.pi * (a - 0.5)))

/-- `dtlz::g13_func`, dtlz.cpp 207-214 -/
noncomputable def g13 (x : List ℝ) : Outcome ℝ := do
  let y ← sumLoop x.length (g13Term x) 0
  .ok (100 * (y + (x.length : ℝ)))

/-- the summand of `g245_func`, dtlz.cpp 220 -/
noncomputable def g245Term (x : List ℝ) (i : Nat) : Outcome ℝ := do
  let a ← Outcome.get x i
  .ok ((a - 0.5) ^ 2)

/-- `dtlz::g245_func`, dtlz.cpp 216-223 -/
noncomputable def g245 (x : List ℝ) : Outcome ℝ := sumLoop x.length (g245Term x) 0

/-- the summand of `g6_func`, dtlz.cpp 229 -/
noncomputable def g6Term (x : List ℝ) (i : Nat) : Outcome ℝ := do
  let a ← Outcome.get x i
  .ok (a ^ (0.1 : ℝ))

/-- `dtlz::g6_func`, dtlz.cpp 225-232 -/
noncomputable def g6 (x : List ℝ) : Outcome ℝ := sumLoop x.length (g6Term x) 0

/-- `dtlz::g7_func`, dtlz.cpp 234-244 -/
noncomputable def g7 (x : List ℝ) : Outcome ℝ := do
  let y ← sumLoop x.length (Outcome.get x) 0
  .ok (9 / (x.length : ℝ) * y)

/-- `dtlz::g_func`, dtlz.cpp 182-204 -/
noncomputable def gFunc (p : Dtlz) (x : List ℝ) : Outcome ℝ :=
  match p.id with
  | 6 => g6 x
  | 7 => g7 x
  | 1 => g13 x
  | 3 => g13 x
  | 2 => g245 x
  | 4 => g245 x
  | 5 => g245 x
  | _ => .ok 0

/-- `for (j = 0; j < n; ++j) k *= f(j)` -/
noncomputable def mulLoop (n : Nat) (f : Nat → Outcome ℝ) (k : ℝ) : Outcome ℝ :=
  (List.range n).foldlM (fun k j => do let t ← f j; .ok (k * t)) k

/-- `f[i]` in the second loop over the objectives -/
noncomputable def shapeMid (m : Nat) (k : ℝ) (c s : Nat → Outcome ℝ) (i : Nat) : Outcome ℝ := do
  let q ← mulLoop (m - (i + 1)) c k
  let t ← s (m - (i + 1))
  .ok (q * t)

/-- The shape functions. `f1_objfun_impl` (dtlz.cpp 258-287), `f23_objfun_impl` (289-316), `f4_objfun_impl` (318-345) and
`f56_objfun_impl` (347-386) differ in the factor `k` in front and in the factors `c` and `s` only: the first objective is `k` times
`c(0) ... c(m - 2)`, the one with index `i` is `k` times `c(0) ... c(m - i - 2)` times `s(m - i - 1)`, the last one is `k` times `s(0)`. -/
noncomputable def shape (m : Nat) (k : ℝ) (c s : Nat → Outcome ℝ) : Outcome (List ℝ) := do
  let f := List.replicate m (0 : ℝ)
  let a ← mulLoop (m - 1) c k
  let f ← Outcome.set f 0 a
  let f ← fillLoop 1 (m - 1 - 1) (shapeMid m k c s) f
  let b ← s 0
  Outcome.set f (m - 1) (k * b)

/-- `1. - x[j]`, dtlz.cpp 282 -/
noncomputable def oneMinus (x : List ℝ) (j : Nat) : Outcome ℝ := do
  let a ← Outcome.get x j
  .ok (1 - a)

/-- `f1_objfun_impl`, dtlz.cpp 258-287; the last objective is `0.5 * (1 - x[0]) * (1 + g)` there, in another order. -/
noncomputable def f1 (p : Dtlz) (x : List ℝ) : Outcome (List ℝ) := do
  let g ← gFunc p (x.drop (p.fdim - 1))
  shape p.fdim (0.5 * (1 + g)) (Outcome.get x) (oneMinus x)

/-- `cos(x[j] * pi_half())`, dtlz.cpp 303 -/
noncomputable def cosHalf (x : List ℝ) (j : Nat) : Outcome ℝ := do
  let a ← Outcome.get x j
  .ok (Real.cos (a * (Real.pi / 2)))

/-- `std::sin(x[j] * pi_half())`, dtlz.cpp 311 -/
noncomputable def sinHalf (x : List ℝ) (j : Nat) : Outcome ℝ := do
  let a ← Outcome.get x j
  .ok (Real.sin (a * (Real.pi / 2)))

/-- `f23_objfun_impl`, dtlz.cpp 289-316 -/
noncomputable def f23 (p : Dtlz) (x : List ℝ) : Outcome (List ℝ) := do
  let g ← gFunc p (x.drop (p.fdim - 1))
  shape p.fdim (1 + g) (cosHalf x) (sinHalf x)

/-- `std::cos(std::pow(x[j], m_alpha) * pi_half())`, dtlz.cpp 332 -/
noncomputable def cosPow (α : Nat) (x : List ℝ) (j : Nat) : Outcome ℝ := do
  let a ← Outcome.get x j
  .ok (Real.cos (a ^ α * (Real.pi / 2)))

/-- `std::sin(std::pow(x[j], m_alpha) * pi_half())`, dtlz.cpp 340 -/
noncomputable def sinPow (α : Nat) (x : List ℝ) (j : Nat) : Outcome ℝ := do
  let a ← Outcome.get x j
  .ok (Real.sin (a ^ α * (Real.pi / 2)))

/-- `f4_objfun_impl`, dtlz.cpp 318-345 -/
noncomputable def f4 (p : Dtlz) (x : List ℝ) : Outcome (List ℝ) := do
  let g ← gFunc p (x.drop (p.fdim - 1))
  shape p.fdim (1 + g) (cosPow p.alpha x) (sinPow p.alpha x)

/-- `theta[i]`, dtlz.cpp 367 -/
noncomputable def thetaAt (x : List ℝ) (g : ℝ) (i : Nat) : Outcome ℝ := do
  let a ← Outcome.get x i
  .ok (1 / (2 * (1 + g)) + g * a / (1 + g))

/-- the meta variables, dtlz.cpp 359-368 -/
noncomputable def theta (m : Nat) (x : List ℝ) (g : ℝ) : Outcome (List ℝ) := do
  let a ← Outcome.get x 0
  let v ← Outcome.set (List.replicate m (0 : ℝ)) 0 a
  fillLoop 1 (m - 1) (thetaAt x g) v

/-- `f56_objfun_impl`, dtlz.cpp 347-386 -/
noncomputable def f56 (p : Dtlz) (x : List ℝ) : Outcome (List ℝ) := do
  let g ← gFunc p (x.drop (p.fdim - 1))
  let t ← theta p.fdim x g
  shape p.fdim (1 + g) (cosHalf t) (sinHalf t)

/-- the summand of `h7_func`, dtlz.cpp 253 -/
noncomputable def h7Term (f : List ℝ) (g : ℝ) (i : Nat) : Outcome ℝ := do
  let a ← Outcome.get f i
  .ok (a / (1 + g) * (1 + Real.sin (3 * Real.pi * a)))

/-- `dtlz::h7_func`, dtlz.cpp 247-256 -/
noncomputable def h7 (p : Dtlz) (f : List ℝ) (g : ℝ) : Outcome ℝ := do
  let y ← sumLoop (f.length - 1) (h7Term f g) 0
  .ok ((p.fdim : ℝ) - y)

/-- `f7_objfun_impl`, dtlz.cpp 388-408 -/
noncomputable def f7 (p : Dtlz) (x : List ℝ) : Outcome (List ℝ) := do
  let g0 ← gFunc p (x.drop (p.fdim - 1))
  let g := 1 + g0
  let f ← fillLoop 0 (p.fdim - 1) (Outcome.get x) (List.replicate p.fdim 0)
  let h ← h7 p f g
  Outcome.set f (p.fdim - 1) ((1 + g) * h)

/-- `dtlz::fitness`, dtlz.cpp 84-107 -/
noncomputable def fitness (p : Dtlz) (x : List ℝ) : Outcome (List ℝ) :=
  match p.id with
  | 1 => f1 p x
  | 2 => f23 p x
  | 3 => f23 p x
  | 4 => f4 p x
  | 5 => f56 p x
  | 6 => f56 p x
  | 7 => f7 p x
  | _ => .ok []

/-- `dtlz::get_bounds`, dtlz.cpp 116-119 -/
def bounds (p : Dtlz) : List ℝ × List ℝ := (List.replicate p.dim 0, List.replicate p.dim 1)

/-- `dtlz::p_distance(const vector_double &)`, dtlz.cpp 156-163, with `convergence_metric`, 411-420 -/
noncomputable def pDistance (p : Dtlz) (x : List ℝ) : Outcome ℝ :=
  if x.length ≠ p.dim then .throws .invalidArgument
  else do
    let c ← gFunc p (x.drop (p.fdim - 1))
    .ok (0 + c)

/-- `dtlz::p_distance(const population &)`, dtlz.cpp 131-139, on the decision vectors of the population. For an empty population the
code divides zero by zero and returns NaN; division by zero of reals gives 0 here, so nothing is to be concluded from the model in that
case. -/
noncomputable def pDistancePop (p : Dtlz) (xs : List (List ℝ)) : Outcome ℝ := do
  let c ← xs.foldlM (fun c x => do let d ← pDistance p x; .ok (c + d)) (0 : ℝ)
  .ok (c / (xs.length : ℝ))

end Verif.Dtlz
