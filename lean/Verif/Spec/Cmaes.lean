import Verif.Spec.Xnes

/-!
# What CMA-ES does, in exact arithmetic

From N. Hansen, "The CMA evolution strategy: a comparing review" (2006), as referred to in include/pagmo/algorithms/cmaes.hpp.
-/

set_option autoImplicit false

namespace Verif.Props

open Verif Prob Matrix

variable {K : Type} [Field K] [LinearOrder K]

/-- The state of the strategy: the step size, the mean, the covariance matrix `C` (for step size 1) and, as of the last decomposition
of `C`, the axes `B`, the standard deviations `D` along them, and `S`, the inverse of the square root of `C`; the evolution paths; the
number of evaluations, now and at the last decomposition. -/
structure Cma (K : Type) (n : Nat) where
  sigma : K
  mean : Fin n → K
  B : Matrix (Fin n) (Fin n) K
  D : Matrix (Fin n) (Fin n) K
  C : Matrix (Fin n) (Fin n) K
  S : Matrix (Fin n) (Fin n) K
  pc : Fin n → K
  ps : Fin n → K
  count : Nat
  last : Nat

/-- The weights and rates. -/
structure CmaPars (K : Type) where
  w : List K
  mueff : K
  cc : K
  cs : K
  c1 : K
  cmu : K
  damps : K
  chi : K

/-- The logarithm, the square root, the exponential, the power, and a method to find eigenvectors and eigenvalues. -/
structure CmaFns (K : Type) where
  L : K → K
  R : K → K
  X : K → K
  W : K → K → K
  Ei : {n : Nat} → Matrix (Fin n) (Fin n) K → Option (Matrix (Fin n) (Fin n) K × (Fin n → K))

/-- The weights of the best individuals: `log (mu + 1/2) - log (k + 1)` for `k = 0, …`, divided by their sum. -/
def cmaWeights (L : K → K) (mu : Nat) : List K :=
  let raw := (List.range mu).map (fun k : Nat => L (mu + 1 / 2) - L (k + 1))
  raw.map (fun a => a / raw.sum)

/-- The sum of the squares of the weights, inverted. -/
def cmaMueff (w : List K) : K := 1 / (w.map (fun a => a * a)).sum

/-- The rates for `n` variables if none are given. -/
def cmaDefaults (F : CmaFns K) (n mu : Nat) : CmaPars K :=
  let w := cmaWeights F.L mu
  let m := cmaMueff w
  let cs := (m + 2) / (n + m + 5)
  ⟨w, m, (4 + m / n) / (n + 4 + 2 * m / n), cs, 2 / ((n + 13 / 10) * (n + 13 / 10) + m),
   2 * (m - 2 + 1 / m) / ((n + 2) * (n + 2) + m), 1 + 2 * max 0 (F.R ((m - 1) / (n + 1)) - 1) + cs, F.R n * (1 - 1 / (4 * n) + 1 / (21 * n * n))⟩

/-- The search distribution. -/
def cmaDist {n : Nat} (c : Cma K n) : Nes K n := ⟨c.mean, c.sigma • (c.B * c.D)⟩

/-- The decomposition of the covariance matrix: nothing changes if it fails; otherwise the new axes and standard deviations (at least `10 ^ -10`). -/
def cmaSplit (F : CmaFns K) {n : Nat} (c : Cma K n) : Cma K n :=
  let C := (1 / 2 : K) • (c.C + c.Cᵀ)
  match F.Ei C with
  | none => { c with C := C, last := c.count }
  | some (B, l) =>
    let d := fun j => F.R (max (1 / 10 ^ 20) (l j))
    { c with C := C, last := c.count, B := B, D := diagonal d, S := B * diagonal (fun j => 1 / d j) * Bᵀ }

/-- The weighted mean of the best individuals. -/
def cmaMean {n : Nat} (l : List (K × (Fin n → K))) : Fin n → K := (l.map (fun p => p.1 • p.2)).sum

/-- The weighted covariance of the best individuals around the old mean. -/
def cmaCov {n : Nat} (m : Fin n → K) (l : List (K × (Fin n → K))) : Matrix (Fin n) (Fin n) K :=
  (l.map (fun p => p.1 • vecMulVec (p.2 - m) (p.2 - m))).sum

/-- The evolution path of the step size; `y` is the step of the mean, for step size 1. -/
def cmaPs (F : CmaFns K) (q : CmaPars K) {n : Nat} (c : Cma K n) (y : Fin n → K) : Fin n → K :=
  (1 - q.cs) • c.ps + F.R (q.cs * (2 - q.cs) * q.mueff) • (c.S *ᵥ y)

/-- The path is not too long. -/
def cmaShort (F : CmaFns K) (q : CmaPars K) {n : Nat} (lam count : Nat) (ps : Fin n → K) : Prop :=
  (∑ j, ps j * ps j) / n / (1 - F.W (1 - q.cs) (2 * count / lam)) < 2 + 4 / (n + 1)

instance {n : Nat} (F : CmaFns K) (q : CmaPars K) (lam count : Nat) (ps : Fin n → K) : Decidable (cmaShort F q lam count ps) := by
  unfold cmaShort; infer_instance

/-- The evolution path of the covariance matrix. -/
def cmaPc (F : CmaFns K) (q : CmaPars K) {n : Nat} (c : Cma K n) (y : Fin n → K) (h : K) : Fin n → K :=
  (1 - q.cc) • c.pc + (h * F.R (q.cc * (2 - q.cc) * q.mueff)) • y

/-- The covariance matrix. -/
def cmaC (q : CmaPars K) {n : Nat} (c : Cma K n) (l : List (K × (Fin n → K))) (pc : Fin n → K) (h : K) : Matrix (Fin n) (Fin n) K :=
  (1 - q.c1 - q.cmu) • c.C + q.cmu • (1 / (c.sigma * c.sigma)) • cmaCov c.mean l +
    q.c1 • (vecMulVec pc pc + ((1 - h) * q.cc * (2 - q.cc)) • c.C)

/-- The step size. -/
def cmaSigma (F : CmaFns K) (q : CmaPars K) {n : Nat} (sigma : K) (ps : Fin n → K) : K :=
  sigma * F.X (min (6 / 10) (q.cs / q.damps * (F.R (∑ j, ps j * ps j) / q.chi - 1)))

/-- The next state, from the best individuals, best first. -/
def cmaNext (F : CmaFns K) (q : CmaPars K) {n : Nat} (lam : Nat) (c : Cma K n) (elite : List (Fin n → K)) : Cma K n :=
  let l := q.w.zip elite
  let y := (1 / c.sigma) • (cmaMean l - c.mean)
  let ps := cmaPs F q c y
  let h : K := if cmaShort F q lam (c.count + lam) ps then 1 else 0
  let pc := cmaPc F q c y h
  let c' : Cma K n := { c with sigma := cmaSigma F q c.sigma ps, mean := cmaMean l, C := cmaC q c l pc h, pc := pc, ps := ps, count := c.count + lam }
  if (lam : K) / (q.c1 + q.cmu) / n / 10 < (c.count + lam - c.last : Nat) then cmaSplit F c' else c'

/-- What a run works with. -/
structure CmaState (K : Type) (n : Nat) where
  cma : Cma K n
  xs : List (List (Fl K))
  fs : List (List (Fl K))
  evs : List (List (Fl K) × User (List (Fl K)))

/-- the search distribution, the individuals, the evaluations -/
def CmaState.nes {n : Nat} (a : CmaState K n) : NesState K n := ⟨cmaDist a.cma, a.xs, a.fs, a.evs⟩

/-- The criteria to stop: the step to the last of the points drawn is shorter than `xtol`, or the best and the worst fitness of the population
differ by less than `ftol`. -/
def CmaStop {n : Nat} (F : CmaFns K) (xtol ftol : Fl K) (lam : Nat) (a : CmaState K n) (zs : List (Fin n → K)) : Prop :=
  (∃ z, zs[lam - 1]? = some z ∧ Fl.lt (.fin (F.R (∑ j, (cmaDist a.cma).A.mulVec z j * (cmaDist a.cma).A.mulVec z j))) xtol = true) ∨
    ∃ f g : Fl K, [f] ∈ a.fs ∧ [g] ∈ a.fs ∧ (∀ h, [h] ∈ a.fs → f ≤ h ∧ h ≤ g) ∧ Fl.lt (Fl.abs (Fl.sub f g)) ftol = true

/-- A generation: neither criterion is met; all individuals are replaced; the new state is computed from the best half of them. -/
def CmaStep {n : Nat} (F : CmaFns K) (q : CmaPars K) (xtol ftol : Fl K) (B : NesBox K n) (a b : CmaState K n) : Prop :=
  ∃ (zs : List (Fin n → K)) (idx : List Nat) (elite : List (Fin n → K)), ((∀ f ∈ a.fs, Fl.nan ∉ f) → ¬ CmaStop F xtol ftol B.lam a zs) ∧
    NesTurn B a.nes zs b.nes ∧ idx.Perm (List.range B.lam) ∧
    idx.Pairwise (fun i j => ∀ f g : Fl K, b.fs[i]? = some [f] → b.fs[j]? = some [g] → f ≤ g) ∧
    elite.length = B.lam / 2 ∧
    (∀ (i j : Nat) (y : Fin n → K), idx[i]? = some j → elite[i]? = some y → b.xs[j]? = some (List.ofFn (fun k => Fl.fin (y k)))) ∧
    b.cma = cmaNext F q B.lam a.cma elite

end Verif.Props
