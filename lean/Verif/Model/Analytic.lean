import Verif.Base.Outcome
import Mathlib.Analysis.SpecialFunctions.Trigonometric.Basic

/-!
# Models of the problems with an analytic fitness

src/problems/rosenbrock.cpp, rastrigin.cpp, minlp_rastrigin.cpp, luksan_vlcek1.cpp, hock_schittkowski_71.cpp, ackley.cpp,
griewank.cpp.

Simplified: real numbers instead of doubles (no rounding, no overflow; the decimal constants are the decimal fractions written in
the source). An access out of range is undefined behaviour. Sparsity patterns are lists of pairs.
-/

set_option autoImplicit false

namespace Verif.Analytic

open Verif

/-- `for (i = 0; i < n; ++i) s += f(i)`, the loop in all the fitness functions below -/
noncomputable def sumLoop (n : Nat) (f : Nat → Outcome ℝ) (s : ℝ) : Outcome ℝ :=
  (List.range n).foldlM (fun s i => do let t ← f i; .ok (s + t)) s

/-- `for (i = a; i < a + n; ++i) v[i] = f(i)` -/
def fillLoop (a n : Nat) (f : Nat → Outcome ℝ) (v : List ℝ) : Outcome (List ℝ) :=
  (List.range' a n).foldlM (fun v i => do let t ← f i; Outcome.set v i t) v

/-! ## rosenbrock -/

/-- src/problems/rosenbrock.cpp 43-49 -/
def rosenCtor (dim : Nat) : Outcome Nat := if dim < 2 then .throws .invalidArgument else .ok dim

/-- the summand, rosenbrock.cpp 63 -/
noncomputable def rosenTerm (x : List ℝ) (i : Nat) : Outcome ℝ := do
  let a ← Outcome.get x i
  let b ← Outcome.get x (i + 1)
  .ok (100 * (a * a - b) * (a * a - b) + (a - 1) * (a - 1))

/-- `rosenbrock::fitness`, rosenbrock.cpp 59-66 -/
noncomputable def rosenFitness (dim : Nat) (x : List ℝ) : Outcome (List ℝ) := do
  let s ← sumLoop (dim - 1) (rosenTerm x) 0
  .ok [s]

/-- `rosenbrock::get_bounds`, rosenbrock.cpp 72-75 -/
def rosenBounds (dim : Nat) : List ℝ × List ℝ := (List.replicate dim (-5), List.replicate dim 10)

/-- `retval[0]`, rosenbrock.cpp 86 -/
noncomputable def rosenFirst (x : List ℝ) : Outcome ℝ := do
  let a ← Outcome.get x 0
  let b ← Outcome.get x 1
  .ok (-400 * a * (b - a * a) - 2 * (1 - a))

/-- `retval[i]`, rosenbrock.cpp 88 -/
noncomputable def rosenMid (x : List ℝ) (i : Nat) : Outcome ℝ := do
  let a ← Outcome.get x i
  let b ← Outcome.get x (i + 1)
  let c ← Outcome.get x (i - 1)
  .ok (-400 * a * (b - a * a) - 2 * (1 - a) + 200 * (a - c * c))

/-- `retval[m_dim - 1u]`, rosenbrock.cpp 90 -/
noncomputable def rosenLast (dim : Nat) (x : List ℝ) : Outcome ℝ := do
  let a ← Outcome.get x (dim - 1)
  let c ← Outcome.get x (dim - 2)
  .ok (200 * (a - c * c))

/-- `rosenbrock::gradient`, rosenbrock.cpp 83-92 -/
noncomputable def rosenGradient (dim : Nat) (x : List ℝ) : Outcome (List ℝ) := do
  let v := List.replicate dim (0 : ℝ)
  let a ← rosenFirst x
  let v ← Outcome.set v 0 a
  let v ← fillLoop 1 (dim - 1 - 1) (rosenMid x) v
  let b ← rosenLast dim x
  Outcome.set v (dim - 1) b

/-- `rosenbrock::best_known`, rosenbrock.cpp 98-101 -/
def rosenBest (dim : Nat) : List ℝ := List.replicate dim 1

/-! ## rastrigin and minlp_rastrigin -/

/-- src/problems/rastrigin.cpp 46-52 (also ackley.cpp 45-51 and griewank.cpp 44-50) -/
def rastCtor (dim : Nat) : Outcome Nat := if dim < 1 then .throws .invalidArgument else .ok dim

/-- the summand, rastrigin.cpp 68 and minlp_rastrigin.cpp 69 -/
noncomputable def rastTerm (x : List ℝ) (i : Nat) : Outcome ℝ := do
  let a ← Outcome.get x i
  .ok (a * a - 10 * Real.cos (2 * Real.pi * a))

/-- `rastrigin::fitness`, rastrigin.cpp 62-72; `minlp_rastrigin::fitness`, minlp_rastrigin.cpp 63-73, is the same. -/
noncomputable def rastFitness (x : List ℝ) : Outcome (List ℝ) := do
  let s ← sumLoop x.length (rastTerm x) 0
  .ok [s + 10 * (x.length : ℝ)]

/-- `rastrigin::get_bounds`, rastrigin.cpp 80-85 -/
noncomputable def rastBounds (dim : Nat) : List ℝ × List ℝ := (List.replicate dim (-5.12), List.replicate dim 5.12)

/-- `g[i]`, rastrigin.cpp 104 and minlp_rastrigin.cpp 109 -/
noncomputable def rastGrad1 (x : List ℝ) (i : Nat) : Outcome ℝ := do
  let a ← Outcome.get x i
  .ok (2 * a + 10 * (2 * Real.pi) * Real.sin (2 * Real.pi * a))

/-- `rastrigin::gradient`, rastrigin.cpp 98-107, and `minlp_rastrigin::gradient`, minlp_rastrigin.cpp 103-112 -/
noncomputable def rastGradient (x : List ℝ) : Outcome (List ℝ) := fillLoop 0 x.length (rastGrad1 x) (List.replicate x.length 0)

/-- `h[i]`, rastrigin.cpp 126 and minlp_rastrigin.cpp 131 -/
noncomputable def rastHess1 (x : List ℝ) (i : Nat) : Outcome ℝ := do
  let a ← Outcome.get x i
  .ok (2 + 10 * (2 * Real.pi) * (2 * Real.pi) * Real.cos (2 * Real.pi * a))

/-- `rastrigin::hessians`, rastrigin.cpp 120-129, and `minlp_rastrigin::hessians`, minlp_rastrigin.cpp 125-134 -/
noncomputable def rastHessians (x : List ℝ) : Outcome (List (List ℝ)) := do
  let h ← fillLoop 0 x.length (rastHess1 x) (List.replicate x.length 0)
  .ok [h]

/-- `rastrigin::hessians_sparsity`, rastrigin.cpp 140-148; `minlp_rastrigin::hessians_sparsity`, minlp_rastrigin.cpp 145-153 (with
`dim = m_dim_c + m_dim_i`) -/
def rastHessSparsity (dim : Nat) : List (List (Nat × Nat)) := [(List.range dim).map (fun i => (i, i))]

/-- `rastrigin::best_known`, rastrigin.cpp 154-157; `ackley::best_known`, ackley.cpp 96-99; `griewank::best_known`, griewank.cpp 95-98 -/
def zeroBest (dim : Nat) : List ℝ := List.replicate dim 0

/-- `minlp_rastrigin`'s constructor, minlp_rastrigin.cpp 47-53; the sum is one of `unsigned`. -/
def minlpCtor (dimC dimI : Nat) : Outcome (Nat × Nat) :=
  if (dimC + dimI) % 2 ^ 32 < 1 then .throws .invalidArgument else .ok (dimC, dimI)

/-! ## luksan_vlcek1 -/

/-- src/problems/luksan_vlcek1.cpp 44-50 -/
def luksanCtor (dim : Nat) : Outcome Nat := if dim < 3 then .throws .invalidArgument else .ok dim

/-- the summand of the objective, luksan_vlcek1.cpp 68-70 -/
noncomputable def luksanTerm (x : List ℝ) (i : Nat) : Outcome ℝ := do
  let a ← Outcome.get x i
  let b ← Outcome.get x (i + 1)
  .ok (100 * (a * a - b) * (a * a - b) + (a - 1) * (a - 1))

/-- the constraints, luksan_vlcek1.cpp 73-75 -/
noncomputable def luksanCon (x : List ℝ) (i : Nat) : Outcome ℝ := do
  let a ← Outcome.get x i
  let b ← Outcome.get x (i + 1)
  let c ← Outcome.get x (i + 2)
  .ok (3 * b ^ 3 + 2 * c - 5 + Real.sin (b - c) * Real.sin (b + c) + 4 * b - a * Real.exp (a - b) - 3)

/-- `luksan_vlcek1::fitness`, luksan_vlcek1.cpp 60-78. The assertion is not modelled (the class `problem` checks the size). -/
noncomputable def luksanFitness (x : List ℝ) : Outcome (List ℝ) := do
  let s ← sumLoop (x.length - 1) (luksanTerm x) 0
  let cs ← (List.range (x.length - 2)).mapM (luksanCon x)
  .ok (s :: cs)

/-- the first loop of the gradient, luksan_vlcek1.cpp 107-110 -/
noncomputable def luksanObjGrad (x : List ℝ) (g : List ℝ) (i : Nat) : Outcome (List ℝ) := do
  let a ← Outcome.get x i
  let b ← Outcome.get x (i + 1)
  let o ← Outcome.get g i
  let g ← Outcome.set g i (o + (400 * a * (a * a - b) + 2 * (a - 1)))
  Outcome.set g (i + 1) (-200 * (a * a - b))

/-- the second loop of the gradient, luksan_vlcek1.cpp 111-121 -/
noncomputable def luksanConGrad (x : List ℝ) (n : Nat) (g : List ℝ) (i : Nat) : Outcome (List ℝ) := do
  let a ← Outcome.get x i
  let b ← Outcome.get x (i + 1)
  let c ← Outcome.get x (i + 2)
  let g ← Outcome.set g (n + 3 * i) (-(1 + a) * Real.exp (a - b))
  let g ← Outcome.set g (n + 1 + 3 * i) (9 * b * b + Real.cos (b - c) * Real.sin (b + c) + Real.sin (b - c) * Real.cos (b + c) + 4
    + a * Real.exp (a - b))
  Outcome.set g (n + 2 + 3 * i) (2 - Real.cos (b - c) * Real.sin (b + c) + Real.sin (b - c) * Real.cos (b + c))

/-- `luksan_vlcek1::gradient`, luksan_vlcek1.cpp 102-123 -/
noncomputable def luksanGradient (x : List ℝ) : Outcome (List ℝ) := do
  let n := x.length
  let g ← (List.range (n - 1)).foldlM (luksanObjGrad x) (List.replicate (n + 3 * (n - 2)) 0)
  (List.range (n - 2)).foldlM (luksanConGrad x n) g

/-- `luksan_vlcek1::gradient_sparsity`, luksan_vlcek1.cpp 134-149 -/
def luksanSparsity (dim : Nat) : List (Nat × Nat) :=
  (List.range dim).map (fun i => (0, i)) ++ (List.range (dim - 2)).flatMap (fun i => [(i + 1, i), (i + 1, i + 1), (i + 1, i + 2)])

/-! ## hock_schittkowski_71 -/

/-- `hock_schittkowski_71::fitness`, src/problems/hock_schittkowski_71.cpp 49-56 -/
noncomputable def hsFitness (x : List ℝ) : Outcome (List ℝ) := do
  let a ← Outcome.get x 0
  let b ← Outcome.get x 1
  let c ← Outcome.get x 2
  let d ← Outcome.get x 3
  .ok [a * d * (a + b + c) + c, a * a + b * b + c * c + d * d - 40, 25 - a * b * c * d]

/-- `hock_schittkowski_71::gradient`, hock_schittkowski_71.cpp 82-96 -/
noncomputable def hsGradient (x : List ℝ) : Outcome (List ℝ) := do
  let a ← Outcome.get x 0
  let b ← Outcome.get x 1
  let c ← Outcome.get x 2
  let d ← Outcome.get x 3
  .ok [a * d + d * (a + b + c), a * d, a * d + 1, a * (a + b + c), 2 * a, 2 * b, 2 * c, 2 * d, -b * c * d, -a * c * d, -a * b * d,
    -a * b * c]

/-- `hock_schittkowski_71::hessians`, hock_schittkowski_71.cpp 110-115 -/
noncomputable def hsHessians (x : List ℝ) : Outcome (List (List ℝ)) := do
  let a ← Outcome.get x 0
  let b ← Outcome.get x 1
  let c ← Outcome.get x 2
  let d ← Outcome.get x 3
  .ok [[2 * d, d, d, 2 * a + b + c, a, a], [2, 2, 2, 2], [-c * d, -b * d, -a * d, -b * c, -a * c, -a * b]]

/-- `hock_schittkowski_71::hessians_sparsity`, hock_schittkowski_71.cpp 127-132 -/
def hsHessSparsity : List (List (Nat × Nat)) :=
  [[(0, 0), (1, 0), (2, 0), (3, 0), (3, 1), (3, 2)], [(0, 0), (1, 1), (2, 2), (3, 3)], [(1, 0), (2, 0), (2, 1), (3, 0), (3, 1), (3, 2)]]

/-- `hock_schittkowski_71::get_bounds`, hock_schittkowski_71.cpp 65-68 -/
def hsBounds : List ℝ × List ℝ := ([1, 1, 1, 1], [5, 5, 5, 5])

/-- `hock_schittkowski_71::best_known`, hock_schittkowski_71.cpp 138-141 -/
noncomputable def hsBest : List ℝ := [1, 4.74299963, 3.82114998, 1.37940829]

/-! ## ackley and griewank -/

/-- `std::cos(omega * x[i])`, src/problems/ackley.cpp 71 -/
noncomputable def ackleyCos (x : List ℝ) (i : Nat) : Outcome ℝ := do
  let a ← Outcome.get x i
  .ok (Real.cos (2 * Real.pi * a))

/-- `x[i] * x[i]`, ackley.cpp 70 and griewank.cpp 69 -/
noncomputable def squareTerm (x : List ℝ) (i : Nat) : Outcome ℝ := do
  let a ← Outcome.get x i
  .ok (a * a)

/-- `ackley::fitness`, ackley.cpp 61-76; the loop is modelled as two loops, one for each sum. -/
noncomputable def ackleyFitness (x : List ℝ) : Outcome (List ℝ) := do
  let s1 ← sumLoop x.length (squareTerm x) 0
  let s2 ← sumLoop x.length (ackleyCos x) 0
  let n : ℝ := x.length
  .ok [-20 * Real.exp (-0.2 * Real.sqrt (1 / n * s1)) - Real.exp (1 / n * s2) + 20 + Real.exp 1]

/-- `ackley::get_bounds`, ackley.cpp 85-90 -/
def ackleyBounds (dim : Nat) : List ℝ × List ℝ := (List.replicate dim (-15), List.replicate dim 30)

/-- one step of the product, src/problems/griewank.cpp 72 -/
noncomputable def griewankStep (x : List ℝ) (p : ℝ) (i : Nat) : Outcome ℝ := do
  let a ← Outcome.get x i
  .ok (p * Real.cos (a / Real.sqrt ((i : ℝ) + 1)))

/-- `griewank::fitness`, griewank.cpp 60-76 -/
noncomputable def griewankFitness (x : List ℝ) : Outcome (List ℝ) := do
  let s ← sumLoop x.length (squareTerm x) 0
  let p ← (List.range x.length).foldlM (griewankStep x) 1
  .ok [s / 4000 - p + 1]

/-- `griewank::get_bounds`, griewank.cpp 84-89 -/
def griewankBounds (dim : Nat) : List ℝ × List ℝ := (List.replicate dim (-600), List.replicate dim 600)

end Verif.Analytic
