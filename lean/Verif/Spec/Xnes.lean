import Mathlib.Data.Matrix.Mul
import Mathlib.LinearAlgebra.Matrix.Trace
import Verif.Model.Algo

/-!
# What xNES does, in exact arithmetic

From T. Glasmachers et al., "Exponential natural evolution strategies" (2010), as documented in include/pagmo/algorithms/xnes.hpp.
-/

set_option autoImplicit false

namespace Verif.Props

open Verif Prob

variable {K : Type} [Field K] [LinearOrder K]

/-- The search distribution: the image of the standard normal distribution under `z ↦ mean + A z`. -/
structure Nes (K : Type) (n : Nat) where
  mean : Fin n → K
  A : Matrix (Fin n) (Fin n) K

/-- The rates and weights. -/
structure NesPars (K : Type) where
  mu : K
  sigma : K
  b : K
  u : List K

/-- A number moved into an interval. -/
def nesClip (lo hi x : K) : K := if x < lo then lo else if hi < x then hi else x

/-- The point that `z` stands for. -/
def nesPoint {n : Nat} (c : Nes K n) (z : Fin n → K) : Fin n → K := c.mean + c.A.mulVec z

/-- The gradient with respect to the matrix: the weighted sum of `z zᵀ - 1`. -/
def nesM {n : Nat} (l : List (K × (Fin n → K))) : Matrix (Fin n) (Fin n) K :=
  (l.map (fun p => p.1 • (Matrix.vecMulVec p.2 p.2 - 1))).sum

/-- The next distribution, from the weights and the vectors, best first. `E` is the matrix exponential. -/
def nesNext {n : Nat} (E : Matrix (Fin n) (Fin n) K → Matrix (Fin n) (Fin n) K) (q : NesPars K) (c : Nes K n) (l : List (K × (Fin n → K))) : Nes K n :=
  let M := nesM l
  let t := M.trace / n
  ⟨c.mean + q.mu • c.A.mulVec (l.map (fun p => p.1 • p.2)).sum,
   c.A * E ((1 / 2 : K) • ((q.sigma * t) • (1 : Matrix (Fin n) (Fin n) K) + q.b • (M - t • (1 : Matrix (Fin n) (Fin n) K))))⟩

/-- The weights: `max (0, log (lam / 2 + 1) - log (k + 1))` for `k = 0, …`, divided by their sum, minus `1 / lam`. -/
def nesWeights (L : K → K) (lam : Nat) : List K :=
  let raw := (List.range lam).map (fun k : Nat => max 0 (L (lam / 2 + 1) - L (k + 1)))
  raw.map (fun a => a / raw.sum - 1 / lam)

/-- What a run works with: the distribution, the individuals, the evaluations (chromosome and fitness). -/
structure NesState (K : Type) (n : Nat) where
  dist : Nes K n
  xs : List (List (Fl K))
  fs : List (List (Fl K))
  evs : List (List (Fl K) × User (List (Fl K)))

/-- The problem and the algorithm: bounds, whether they are enforced, number of individuals. -/
structure NesBox (K : Type) (n : Nat) where
  lo : Fin n → K
  hi : Fin n → K
  force : Bool
  lam : Nat

/-- The individuals are replaced by the points that `zs` stand for (moved into the bounds if these are enforced), and evaluated in turn. -/
structure NesTurn {n : Nat} (B : NesBox K n) (a : NesState K n) (zs : List (Fin n → K)) (b : NesState K n) : Prop where
  zl : zs.length = B.lam
  xl : b.xs.length = B.lam
  fl : b.fs.length = B.lam
  pts : ∀ (i : Nat) (z : Fin n → K) (x : List (Fl K)), zs[i]? = some z → b.xs[i]? = some x →
    x = List.ofFn (fun j => Fl.fin (if B.force then nesClip (B.lo j) (B.hi j) (nesPoint a.dist z j) else nesPoint a.dist z j))
  f1 : ∀ f ∈ b.fs, ∃ w, f = [w]
  ev : b.evs = a.evs ++ (b.xs.zip b.fs).map (fun p => (p.1, .ok p.2))

/-- A generation: the new distribution is computed from the old one and from the vectors, best individual first. -/
def NesStep {n : Nat} (E : Matrix (Fin n) (Fin n) K → Matrix (Fin n) (Fin n) K) (q : NesPars K) (B : NesBox K n) (a b : NesState K n) : Prop :=
  ∃ (zs : List (Fin n → K)) (idx : List Nat), NesTurn B a zs b ∧ idx.Perm (List.range B.lam) ∧
    idx.Pairwise (fun i j => ∀ f g : Fl K, b.fs[i]? = some [f] → b.fs[j]? = some [g] → f ≤ g) ∧
    b.dist = nesNext E q a.dist (q.u.zip (idx.map (fun i => zs.getD i 0)))

/-- A generation after which the run stops: the step to the first individual is shorter than `xtol`, or the best and the worst
fitness differ by less than `ftol`. -/
def NesLast {n : Nat} (sq : Fl K → Fl K) (xtol ftol : Fl K) (B : NesBox K n) (a b : NesState K n) : Prop :=
  ∃ zs : List (Fin n → K), NesTurn B a zs b ∧ b.dist = a.dist ∧
    ((∃ z, zs[0]? = some z ∧ Fl.lt (sq (.fin (∑ j, a.dist.A.mulVec z j * a.dist.A.mulVec z j))) xtol = true) ∨
      ∃ f g : Fl K, [f] ∈ b.fs ∧ [g] ∈ b.fs ∧ (∀ h, [h] ∈ b.fs → f ≤ h ∧ h ≤ g) ∧ Fl.lt (Fl.abs (Fl.sub f g)) ftol = true)

end Verif.Props
