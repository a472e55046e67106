import Verif.Spec.Cec2013

/-!
The functions of the CEC 2014 competition as the technical report defines them (Liang, Qu, Suganthan, Problem Definitions and Evaluation Criteria
for the CEC 2014 Special Session and Competition on Single Objective Real-Parameter Numerical Optimization), with sums, products and matrices.
Indices start at 0. Independent of the model.
-/

set_option autoImplicit false

namespace Verif.Spec

open Finset

/-- a function of the report, given the number of variables and the shifted and rotated point; it scales by itself -/
abbrev C14Fun := ℕ → (ℕ → ℝ) → ℝ

noncomputable def c14Elliptic : C14Fun := fun n v => ∑ i ∈ range n, (10 ^ 6 : ℝ) ^ ((i : ℝ) / ((n : ℝ) - 1)) * v i ^ 2

noncomputable def c14Cigar : C14Fun := fun n v => v 0 ^ 2 + 10 ^ 6 * ∑ i ∈ (range n).erase 0, v i ^ 2

noncomputable def c14Discus : C14Fun := fun n v => 10 ^ 6 * v 0 ^ 2 + ∑ i ∈ (range n).erase 0, v i ^ 2

noncomputable def c14Rosenbrock : C14Fun := fun n v =>
  let z := fun i => 2.048 * v i / 100 + 1
  ∑ i ∈ range (n - 1), (100 * (z i ^ 2 - z (i + 1)) ^ 2 + (z i - 1) ^ 2)

noncomputable def c14Ackley : C14Fun := fun n v =>
  20 + Real.exp 1 - 20 * Real.exp (-0.2 * √(1 / n * ∑ i ∈ range n, v i ^ 2)) - Real.exp (1 / n * ∑ i ∈ range n, Real.cos (2 * Real.pi * v i))

noncomputable def c14Weierstrass : C14Fun := fun n v =>
  ∑ i ∈ range n, ∑ k ∈ range 21, 0.5 ^ k * Real.cos (2 * Real.pi * 3 ^ k * (0.5 * v i / 100 + 0.5))
    - n * ∑ k ∈ range 21, 0.5 ^ k * Real.cos (2 * Real.pi * 3 ^ k * 0.5)

noncomputable def c14Griewank : C14Fun := fun n v =>
  let z := fun i => 600 * v i / 100
  ∑ i ∈ range n, z i ^ 2 / 4000 - ∏ i ∈ range n, Real.cos (z i / √((i : ℝ) + 1)) + 1

noncomputable def c14Rastrigin : C14Fun := fun n v =>
  let z := fun i => 5.12 * v i / 100
  ∑ i ∈ range n, (z i ^ 2 - 10 * Real.cos (2 * Real.pi * z i) + 10)

noncomputable def c14Schwefel : C14Fun := fun n v =>
  418.9828872724338 * n - ∑ i ∈ range n, c13SchwefelG n (1000 * v i / 100 + 420.9687462275036)

noncomputable def c14Katsuura : C14Fun := fun n v =>
  let z := fun i => 5 * v i / 100
  10 / (n : ℝ) ^ 2 * ∏ i ∈ range n,
      (1 + ((i : ℝ) + 1) * ∑ j ∈ range 32, |2 ^ (j + 1) * z i - (round (2 ^ (j + 1) * z i) : ℝ)| / 2 ^ (j + 1)) ^ (10 / (n : ℝ) ^ (1.2 : ℝ))
    - 10 / (n : ℝ) ^ 2

noncomputable def c14HappyCat : C14Fun := fun n v =>
  let z := fun i => 5 * v i / 100 - 1
  |∑ i ∈ range n, z i ^ 2 - n| ^ (1 / 4 : ℝ) + (0.5 * ∑ i ∈ range n, z i ^ 2 + ∑ i ∈ range n, z i) / n + 0.5

noncomputable def c14HGBat : C14Fun := fun n v =>
  let z := fun i => 5 * v i / 100 - 1
  √|(∑ i ∈ range n, z i ^ 2) ^ 2 - (∑ i ∈ range n, z i) ^ 2| + (0.5 * ∑ i ∈ range n, z i ^ 2 + ∑ i ∈ range n, z i) / n + 0.5

noncomputable def c14GrieRosen : C14Fun := fun n v =>
  let z := fun i => 5 * v i / 100 + 1
  let g1 := fun a b : ℝ => 100 * (a ^ 2 - b) ^ 2 + (a - 1) ^ 2
  let g2 := fun t : ℝ => t ^ 2 / 4000 - Real.cos t + 1
  ∑ i ∈ range n, g2 (g1 (z i) (z ((i + 1) % n)))

noncomputable def c14Scaffer : C14Fun := fun n v =>
  let g := fun a b : ℝ => 0.5 + (Real.sin √(a ^ 2 + b ^ 2) ^ 2 - 0.5) / (1 + 0.001 * (a ^ 2 + b ^ 2)) ^ 2
  ∑ i ∈ range n, g (v i) (v ((i + 1) % n))

/-- a basic function, or a hybrid: functions with the share of the variables each of them is given, in tenths -/
inductive C14Leaf where
  | one (g : C14Fun)
  | mix (ps : List (ℕ × C14Fun))

/-- the sum of the functions of a hybrid, the first on the variables from `a` tenths on -/
noncomputable def c14Mix (n : ℕ) (y : ℕ → ℝ) : ℕ → List (ℕ × C14Fun) → ℝ
  | _, [] => 0
  | a, p :: ps => p.2 (p.1 * n / 10) (fun i => y (a * n / 10 + i)) + c14Mix n y (a + p.1) ps

/-- the value at a shifted and rotated point; a hybrid orders the variables by a permutation of 1 to `n` -/
noncomputable def C14Leaf.val (l : C14Leaf) (n : ℕ) (perm : ℕ → ℕ) (v : ℕ → ℝ) : ℝ :=
  match l with
  | .one g => g n v
  | .mix ps => c14Mix n (fun j => v (perm j - 1)) 0 ps

noncomputable def c14H1 : C14Leaf := .mix [(3, c14Schwefel), (3, c14Rastrigin), (4, c14Elliptic)]
noncomputable def c14H2 : C14Leaf := .mix [(3, c14Cigar), (3, c14HGBat), (4, c14Rastrigin)]
noncomputable def c14H3 : C14Leaf := .mix [(2, c14Griewank), (2, c14Weierstrass), (3, c14Rosenbrock), (3, c14Scaffer)]
noncomputable def c14H4 : C14Leaf := .mix [(2, c14HGBat), (2, c14Discus), (3, c14GrieRosen), (3, c14Rastrigin)]
noncomputable def c14H5 : C14Leaf := .mix [(1, c14Scaffer), (2, c14HGBat), (2, c14Rosenbrock), (2, c14Schwefel), (3, c14Elliptic)]
noncomputable def c14H6 : C14Leaf := .mix [(1, c14Katsuura), (2, c14HappyCat), (2, c14GrieRosen), (2, c14Schwefel), (3, c14Ackley)]

/-- the problems 1 to 22: the function, whether it is rotated -/
noncomputable def c14Singles : List (C14Leaf × Bool) :=
  [(.one c14Elliptic, true), (.one c14Cigar, true), (.one c14Discus, true), (.one c14Rosenbrock, true), (.one c14Ackley, true),
    (.one c14Weierstrass, true), (.one c14Griewank, true), (.one c14Rastrigin, false), (.one c14Rastrigin, true), (.one c14Schwefel, false),
    (.one c14Schwefel, true), (.one c14Katsuura, true), (.one c14HappyCat, true), (.one c14HGBat, true), (.one c14GrieRosen, true),
    (.one c14Scaffer, true), (c14H1, true), (c14H2, true), (c14H3, true), (c14H4, true), (c14H5, true), (c14H6, true)]

/-- a component of a composition function: the function, whether it is rotated, `λ`, `σ` and the bias -/
abbrev C14Part := C14Leaf × Bool × ℝ × ℝ × ℝ

/-- the problems 23 to 30 -/
noncomputable def c14Comps : List (List C14Part) :=
  [[(.one c14Rosenbrock, true, 1, 10, 0), (.one c14Elliptic, true, 1e-6, 20, 100), (.one c14Cigar, true, 1e-26, 30, 200),
      (.one c14Discus, true, 1e-6, 40, 300), (.one c14Elliptic, false, 1e-6, 50, 400)],
    [(.one c14Schwefel, false, 1, 20, 0), (.one c14Rastrigin, true, 1, 20, 100), (.one c14HGBat, true, 1, 20, 200)],
    [(.one c14Schwefel, true, 0.25, 10, 0), (.one c14Rastrigin, true, 1, 30, 100), (.one c14Elliptic, true, 1e-7, 50, 200)],
    [(.one c14Schwefel, true, 0.25, 10, 0), (.one c14HappyCat, true, 1, 10, 100), (.one c14Elliptic, true, 1e-7, 10, 200),
      (.one c14Weierstrass, true, 2.5, 10, 300), (.one c14Griewank, true, 10, 10, 400)],
    [(.one c14HGBat, true, 10, 10, 0), (.one c14Rastrigin, true, 10, 10, 100), (.one c14Schwefel, true, 2.5, 10, 200),
      (.one c14Weierstrass, true, 25, 20, 300), (.one c14Elliptic, true, 1e-6, 20, 400)],
    [(.one c14GrieRosen, true, 2.5, 10, 0), (.one c14HappyCat, true, 10, 20, 100), (.one c14Schwefel, true, 2.5, 30, 200),
      (.one c14Scaffer, true, 5e-4, 40, 300), (.one c14Elliptic, true, 1e-6, 50, 400)],
    [(c14H1, true, 1, 10, 0), (c14H2, true, 1, 30, 100), (c14H3, true, 1, 50, 200)],
    [(c14H4, true, 1, 10, 0), (c14H5, true, 1, 30, 100), (c14H6, true, 1, 50, 200)]]

/-- how many shifts, matrices and shuffles a problem needs -/
def c14Rows (id : ℕ) : ℕ := if id ≤ 22 then 1 else if id = 24 ∨ id = 25 ∨ 29 ≤ id then 3 else 5

/-- the `k`-th shift: the table has rows of 100 numbers, of which the first ones are used -/
def c14Shift (table : List ℝ) (k : ℕ) : ℕ → ℝ := fun i => table.getD (k * 100 + i) 0

/-- the `k`-th permutation of 1 to `n` -/
def c14Perm (n : ℕ) (table : List ℤ) (k : ℕ) : ℕ → ℕ := fun j => (table.getD (k * n + j) 0).toNat

/-- a function with the `k`-th shift, matrix and permutation -/
noncomputable def c14At (l : C14Leaf) (rot : Bool) (n : ℕ) (shifts mats : List ℝ) (perms : List ℤ) (k : ℕ) (x : List ℝ) : ℝ :=
  l.val n (c14Perm n perms k) (c13Mul n (c13Mat rot n mats k) (fun i => x.getD i 0 - c14Shift shifts k i))

/-- the weight of a component with the optimum `o` and the width `s`; the largest double at the optimum -/
noncomputable def c14Weight (n : ℕ) (o : ℕ → ℝ) (s : ℝ) (x : ℕ → ℝ) : ℝ :=
  let d := ∑ j ∈ range n, (x j - o j) ^ 2
  if d = 0 then (2 ^ 53 - 1) * 2 ^ 971 else 1 / √d * Real.exp (-d / (2 * n * s ^ 2))

/-- the weight of the `k`-th component -/
noncomputable def c14W (n : ℕ) (shifts : List ℝ) (x : List ℝ) (q : C14Part × ℕ) : ℝ :=
  c14Weight n (c14Shift shifts q.2) q.1.2.2.2.1 (fun i => x.getD i 0)

/-- a composition: the weighted mean of `λ_k g_k + bias_k` -/
noncomputable def c14Comp (ps : List C14Part) (n : ℕ) (shifts mats : List ℝ) (perms : List ℤ) (x : List ℝ) : ℝ :=
  (ps.zipIdx.map (fun q => c14W n shifts x q * (q.1.2.2.1 * c14At q.1.1 q.1.2.1 n shifts mats perms q.2 x + q.1.2.2.2.2))).sum
    / (ps.zipIdx.map (c14W n shifts x)).sum

end Verif.Spec
