import Mathlib.Analysis.SpecialFunctions.Pow.Real
import Mathlib.Analysis.SpecialFunctions.Trigonometric.Basic
import Mathlib.Analysis.SpecialFunctions.Sqrt
import Mathlib.Data.Real.Sign
import Mathlib.Algebra.Order.Round

/-!
The functions of the CEC 2013 competition as the technical report defines them (Liang, Qu, Suganthan, Hernández-Díaz, Problem Definitions and
Evaluation Criteria for the CEC 2013 Special Session on Real-Parameter Optimization), with sums, products and matrices. Indices start at 0.
Independent of the model. Two places follow the code instead of the report, and say so.
-/

set_option autoImplicit false

namespace Verif.Spec

open Finset

/-- the product of a matrix and a vector -/
def c13Mul (n : ℕ) (M : ℕ → ℕ → ℝ) (v : ℕ → ℝ) : ℕ → ℝ := fun i => ∑ j ∈ range n, M i j * v j

/-- the identity matrix, for the functions that are not rotated -/
def c13Id : ℕ → ℕ → ℝ := fun i j => if i = j then 1 else 0

/-- the exponent `i / (n - 1)` -/
noncomputable def c13E (n i : ℕ) : ℝ := (i : ℝ) / ((n : ℝ) - 1)

/-- the diagonal matrix `Λ^a` applied to a vector -/
noncomputable def c13Lam (n : ℕ) (a : ℝ) (v : ℕ → ℝ) : ℕ → ℝ := fun i => a ^ (c13E n i / 2) * v i

/-- `T_asy^b` of `v`. As in the code, and not as in the report, entries that are not positive are those of `w` instead of those of `v` -/
noncomputable def c13Asy (n : ℕ) (b : ℝ) (v w : ℕ → ℝ) : ℕ → ℝ := fun i => if 0 < v i then v i ^ (1 + b * c13E n i * √(v i)) else w i

/-- the report's `T_asy^b` -/
noncomputable def c13AsyReport (n : ℕ) (b : ℝ) (v : ℕ → ℝ) : ℕ → ℝ := c13Asy n b v v

/-- `T_osz` of a number -/
noncomputable def c13Osz1 (t : ℝ) : ℝ :=
  let h := if t = 0 then 0 else Real.log |t|
  let c1 := if 0 < t then 10 else 5.5
  let c2 := if 0 < t then 7.9 else 3.1
  Real.sign t * Real.exp (h + 0.049 * (Real.sin (c1 * h) + Real.sin (c2 * h)))

/-- `T_osz`, on the first and the last entry -/
noncomputable def c13Osz (n : ℕ) (v : ℕ → ℝ) : ℕ → ℝ := fun i => if i = 0 ∨ i + 1 = n then c13Osz1 (v i) else v i

/-- a function of the report, given the dimension, the shift, the two rotations and the point -/
abbrev C13Fun := ℕ → (ℕ → ℝ) → (ℕ → ℕ → ℝ) → (ℕ → ℕ → ℝ) → (ℕ → ℝ) → ℝ

noncomputable def c13Sphere : C13Fun := fun n o M _ x => ∑ i ∈ range n, c13Mul n M (fun i => x i - o i) i ^ 2

noncomputable def c13Elliptic : C13Fun := fun n o M _ x =>
  let z := c13Osz n (c13Mul n M (fun i => x i - o i))
  ∑ i ∈ range n, (10 ^ 6 : ℝ) ^ c13E n i * z i ^ 2

noncomputable def c13Cigar : C13Fun := fun n o M N x =>
  let z := c13Mul n N (c13Asy n 0.5 (c13Mul n M (fun i => x i - o i)) (fun i => x i - o i))
  z 0 ^ 2 + 10 ^ 6 * ∑ i ∈ (range n).erase 0, z i ^ 2

noncomputable def c13Discus : C13Fun := fun n o M _ x =>
  let z := c13Osz n (c13Mul n M (fun i => x i - o i))
  10 ^ 6 * z 0 ^ 2 + ∑ i ∈ (range n).erase 0, z i ^ 2

noncomputable def c13Powers : C13Fun := fun n o M _ x =>
  √(∑ i ∈ range n, |c13Mul n M (fun i => x i - o i) i| ^ (2 + 4 * c13E n i))

noncomputable def c13Rosenbrock : C13Fun := fun n o M _ x =>
  let z := fun i => c13Mul n M (fun i => 2.048 * (x i - o i) / 100) i + 1
  ∑ i ∈ range (n - 1), (100 * (z i ^ 2 - z (i + 1)) ^ 2 + (z i - 1) ^ 2)

noncomputable def c13Schaffer : C13Fun := fun n o M N x =>
  let y := c13Mul n N (c13Lam n 10 (c13Asy n 0.5 (c13Mul n M (fun i => x i - o i)) (fun i => x i - o i)))
  let z := fun i => √(y i ^ 2 + y (i + 1) ^ 2)
  (1 / ((n : ℝ) - 1) * ∑ i ∈ range (n - 1), (√(z i) + √(z i) * Real.sin (50 * z i ^ (0.2 : ℝ)) ^ 2)) ^ 2

noncomputable def c13Ackley : C13Fun := fun n o M N x =>
  let z := c13Mul n N (c13Lam n 10 (c13Asy n 0.5 (c13Mul n M (fun i => x i - o i)) (fun i => x i - o i)))
  20 + Real.exp 1 - 20 * Real.exp (-0.2 * √(1 / n * ∑ i ∈ range n, z i ^ 2)) - Real.exp (1 / n * ∑ i ∈ range n, Real.cos (2 * Real.pi * z i))

noncomputable def c13Weierstrass : C13Fun := fun n o M N x =>
  let y := fun i => 0.5 * (x i - o i) / 100
  let z := c13Mul n N (c13Lam n 10 (c13Asy n 0.5 (c13Mul n M y) y))
  ∑ i ∈ range n, ∑ k ∈ range 21, 0.5 ^ k * Real.cos (2 * Real.pi * 3 ^ k * (z i + 0.5))
    - n * ∑ k ∈ range 21, 0.5 ^ k * Real.cos (2 * Real.pi * 3 ^ k * 0.5)

noncomputable def c13Griewank : C13Fun := fun n o M _ x =>
  let z := c13Lam n 100 (c13Mul n M (fun i => 600 * (x i - o i) / 100))
  ∑ i ∈ range n, z i ^ 2 / 4000 - ∏ i ∈ range n, Real.cos (z i / √((i : ℝ) + 1)) + 1

/-- the rest of the two functions of Rastrigin, given the rotated vector; `T_asy` keeps what was there before `T_osz` -/
noncomputable def c13RasTail (n : ℕ) (M N : ℕ → ℕ → ℝ) (y : ℕ → ℝ) : ℝ :=
  let z := c13Mul n M (c13Lam n 10 (c13Mul n N (c13Asy n 0.2 (c13Osz n y) y)))
  ∑ i ∈ range n, (z i ^ 2 - 10 * Real.cos (2 * Real.pi * z i) + 10)

noncomputable def c13Rastrigin : C13Fun := fun n o M N x => c13RasTail n M N (c13Mul n M (fun i => 5.12 * (x i - o i) / 100))

noncomputable def c13Step : C13Fun := fun n o M N x =>
  let t := c13Mul n M (fun i => 5.12 * (x i - o i) / 100)
  c13RasTail n M N (fun i => if |t i| ≤ 0.5 then t i else (round (2 * t i) : ℝ) / 2)

/-- the remainder modulo 500 -/
noncomputable def c13Mod (t : ℝ) : ℝ := 500 * Int.fract (t / 500)

noncomputable def c13SchwefelG (n : ℕ) (z : ℝ) : ℝ :=
  if |z| ≤ 500 then z * Real.sin √|z|
  else if 500 < z then (500 - c13Mod z) * Real.sin √|500 - c13Mod z| - (z - 500) ^ 2 / (10000 * n)
  else (c13Mod |z| - 500) * Real.sin √|c13Mod |z| - 500| - (z + 500) ^ 2 / (10000 * n)

noncomputable def c13Schwefel : C13Fun := fun n o M _ x =>
  let z := fun i => c13Lam n 10 (c13Mul n M (fun i => 1000 * (x i - o i) / 100)) i + 420.9687462275036
  418.9828872724338 * n - ∑ i ∈ range n, c13SchwefelG n (z i)

noncomputable def c13Katsuura : C13Fun := fun n o M N x =>
  let z := c13Mul n N (c13Lam n 100 (c13Mul n M (fun i => 5 * (x i - o i) / 100)))
  10 / (n : ℝ) ^ 2 * ∏ i ∈ range n,
      (1 + ((i : ℝ) + 1) * ∑ j ∈ range 32, |2 ^ (j + 1) * z i - (round (2 ^ (j + 1) * z i) : ℝ)| / 2 ^ (j + 1)) ^ (10 / (n : ℝ) ^ (1.2 : ℝ))
    - 10 / (n : ℝ) ^ 2

noncomputable def c13Lunacek : C13Fun := fun n o M N x =>
  let s := 1 - 1 / (2 * √((n : ℝ) + 20) - 8.2)
  let mu0 := (2.5 : ℝ)
  let mu1 := -√((mu0 ^ 2 - 1) / s)
  let t := fun i => 2 * (if 0 ≤ o i then 1 else -1) * (10 * (x i - o i) / 100) + mu0
  let z := c13Mul n N (c13Lam n 100 (c13Mul n M (fun i => t i - mu0)))
  min (∑ i ∈ range n, (t i - mu0) ^ 2) (n + s * ∑ i ∈ range n, (t i - mu1) ^ 2) + 10 * (n - ∑ i ∈ range n, Real.cos (2 * Real.pi * z i))

/-- as in the code, and not as in the report, there is no rotation -/
noncomputable def c13GrieRosen : C13Fun := fun n o _ _ x =>
  let z := fun i => 5 * (x i - o i) / 100 + 1
  let g1 := fun a b : ℝ => 100 * (a ^ 2 - b) ^ 2 + (a - 1) ^ 2
  let g2 := fun t : ℝ => t ^ 2 / 4000 - Real.cos t + 1
  ∑ i ∈ range n, g2 (g1 (z i) (z ((i + 1) % n)))

noncomputable def c13Scaffer : C13Fun := fun n o M N x =>
  let z := c13Mul n N (c13Asy n 0.5 (c13Mul n M (fun i => x i - o i)) (fun i => x i - o i))
  let g := fun a b : ℝ => 0.5 + (Real.sin √(a ^ 2 + b ^ 2) ^ 2 - 0.5) / (1 + 0.001 * (a ^ 2 + b ^ 2)) ^ 2
  ∑ i ∈ range n, g (z i) (z ((i + 1) % n))

/-- the report's bent cigar -/
noncomputable def c13CigarReport : C13Fun := fun n o M N x =>
  let z := c13Mul n N (c13AsyReport n 0.5 (c13Mul n M (fun i => x i - o i)))
  z 0 ^ 2 + 10 ^ 6 * ∑ i ∈ (range n).erase 0, z i ^ 2

/-- the value of a problem at its optimum -/
noncomputable def c13Best (id : ℕ) : ℝ := if id ≤ 14 then 100 * (id : ℝ) - 1500 else 100 * (id : ℝ) - 1400

/-- the problems 1 to 20: the function, whether it is rotated, the value at the optimum -/
noncomputable def c13Basics : List (C13Fun × Bool × ℝ) :=
  [(c13Sphere, false, -1400), (c13Elliptic, true, -1300), (c13Cigar, true, -1200), (c13Discus, true, -1100), (c13Powers, false, -1000),
    (c13Rosenbrock, true, -900), (c13Schaffer, true, -800), (c13Ackley, true, -700), (c13Weierstrass, true, -600), (c13Griewank, true, -500),
    (c13Rastrigin, false, -400), (c13Rastrigin, true, -300), (c13Step, true, -200), (c13Schwefel, false, -100), (c13Schwefel, true, 100),
    (c13Katsuura, true, 200), (c13Lunacek, false, 300), (c13Lunacek, true, 400), (c13GrieRosen, true, 500), (c13Scaffer, true, 600)]

/-- a component of a composition function: the function, whether it is rotated, `λ`, `σ` and the bias -/
abbrev C13Part := C13Fun × Bool × ℝ × ℝ × ℝ

/-- the problems 21 to 28: the components, the value at the optimum -/
noncomputable def c13Comps : List (List C13Part × ℝ) :=
  [([(c13Rosenbrock, true, 1, 10, 0), (c13Powers, true, 1e-6, 20, 100), (c13Cigar, true, 1e-26, 30, 200), (c13Discus, true, 1e-6, 40, 300),
      (c13Sphere, false, 0.1, 50, 400)], 700),
    ([(c13Schwefel, false, 1, 20, 0), (c13Schwefel, false, 1, 20, 100), (c13Schwefel, false, 1, 20, 200)], 800),
    ([(c13Schwefel, true, 1, 20, 0), (c13Schwefel, true, 1, 20, 100), (c13Schwefel, true, 1, 20, 200)], 900),
    ([(c13Schwefel, true, 0.25, 20, 0), (c13Rastrigin, true, 1, 20, 100), (c13Weierstrass, true, 2.5, 20, 200)], 1000),
    ([(c13Schwefel, true, 0.25, 10, 0), (c13Rastrigin, true, 1, 30, 100), (c13Weierstrass, true, 2.5, 50, 200)], 1100),
    ([(c13Schwefel, true, 0.25, 10, 0), (c13Rastrigin, true, 1, 10, 100), (c13Elliptic, true, 1e-7, 10, 200), (c13Weierstrass, true, 2.5, 10, 300),
      (c13Griewank, true, 10, 10, 400)], 1200),
    ([(c13Griewank, true, 100, 10, 0), (c13Rastrigin, true, 10, 10, 100), (c13Schwefel, true, 2.5, 10, 200), (c13Weierstrass, true, 25, 20, 300),
      (c13Sphere, false, 0.1, 20, 400)], 1300),
    ([(c13GrieRosen, true, 2.5, 10, 0), (c13Schaffer, true, 2.5e-3, 20, 100), (c13Schwefel, true, 2.5, 30, 200), (c13Scaffer, true, 5e-4, 40, 300),
      (c13Sphere, false, 0.1, 50, 400)], 1400)]

/-- the weight of a component with the optimum `o` and the width `s` -/
noncomputable def c13Weight (n : ℕ) (o : ℕ → ℝ) (s : ℝ) (x : ℕ → ℝ) : ℝ :=
  let d := ∑ j ∈ range n, (x j - o j) ^ 2
  if d = 0 then 1e99 else 1 / √d * Real.exp (-d / (2 * n * s ^ 2))

/-- the `k`-th matrix of a table of matrices of `n` rows, or the identity -/
def c13Mat (rot : Bool) (n : ℕ) (table : List ℝ) (k : ℕ) : ℕ → ℕ → ℝ := fun i j => if rot then table.getD ((k * n + i) * n + j) 0 else c13Id i j

/-- the `k`-th shift of a table of shifts of `n` numbers -/
def c13Shift (n : ℕ) (table : List ℝ) (k : ℕ) : ℕ → ℝ := fun i => table.getD (k * n + i) 0

/-- a function with the `k`-th shift and the `k`-th and the next matrix -/
noncomputable def c13At (g : C13Fun) (rot : Bool) (n : ℕ) (shifts mats : List ℝ) (k : ℕ) (x : List ℝ) : ℝ :=
  g n (c13Shift n shifts k) (c13Mat rot n mats k) (c13Mat rot n mats (k + 1)) (fun i => x.getD i 0)

/-- the weight of the `k`-th component -/
noncomputable def c13W (n : ℕ) (shifts : List ℝ) (x : List ℝ) (q : C13Part × ℕ) : ℝ :=
  c13Weight n (c13Shift n shifts q.2) q.1.2.2.2.1 (fun i => x.getD i 0)

/-- a composition: the weighted mean of `λ_k g_k + bias_k` -/
noncomputable def c13Comp (ps : List C13Part) (n : ℕ) (shifts mats : List ℝ) (x : List ℝ) : ℝ :=
  (ps.zipIdx.map (fun q => c13W n shifts x q * (q.1.2.2.1 * c13At q.1.1 q.1.2.1 n shifts mats q.2 x + q.1.2.2.2.2))).sum
    / (ps.zipIdx.map (c13W n shifts x)).sum

end Verif.Spec
