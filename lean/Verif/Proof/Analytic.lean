import Verif.Model.Analytic
import Mathlib.Algebra.BigOperators.Intervals
import Mathlib.Algebra.Order.BigOperators.Group.Finset
import Mathlib.Analysis.Calculus.Deriv.Add
import Mathlib.Analysis.Calculus.Deriv.Mul
import Mathlib.Analysis.Calculus.Deriv.Pow
import Mathlib.Analysis.SpecialFunctions.Trigonometric.Deriv
import Mathlib.Analysis.SpecialFunctions.ExpDeriv

/-!
# Closed forms of the analytic problems
-/

set_option autoImplicit false

namespace Verif.Analytic

open Verif Finset

/-- component `i`, 0 outside -/
def at0 (x : List ℝ) (i : Nat) : ℝ := x.getD i 0

theorem get_at0 {x : List ℝ} {i : Nat} (h : i < x.length) : Outcome.get x i = .ok (at0 x i) := by
  rw [Outcome.get_of_lt h, at0, List.getD_eq_getElem?_getD, List.getElem?_eq_getElem h]; rfl

theorem at0_some {x : List ℝ} {i : Nat} {a : ℝ} (h : x[i]? = some a) : at0 x i = a := by
  rw [at0, List.getD_eq_getElem?_getD, h]; rfl

theorem some_at0 {x : List ℝ} {i : Nat} (h : i < x.length) : x[i]? = some (at0 x i) := by
  rw [at0, List.getD_eq_getElem?_getD, List.getElem?_eq_getElem h]; rfl

theorem at0_set {x : List ℝ} {c : Nat} (hc : c < x.length) (t : ℝ) (i : Nat) :
    at0 (x.set c t) i = if i = c then t else at0 x i := by
  simp only [at0, List.getD_eq_getElem?_getD, List.getElem?_set]
  by_cases h : i = c
  · subst h; simp [hc]
  · rw [if_neg (Ne.symm h), if_neg h]

theorem sumLoop_ok {n : Nat} {f : Nat → Outcome ℝ} {g : Nat → ℝ} (h : ∀ i, i < n → f i = .ok (g i)) (s : ℝ) :
    sumLoop n f s = .ok (s + ∑ i ∈ range n, g i) := by
  induction n with
  | zero => simp [sumLoop]
  | succ n ih =>
    have := ih (fun i hi => h i (by omega))
    unfold sumLoop at this ⊢
    rw [List.range_succ, List.foldlM_append, this]
    simp only [Outcome.bind_ok, List.foldlM_cons, List.foldlM_nil, h n (by omega), Outcome.pure_eq, sum_range_succ, add_assoc]

theorem fillLoop_ok {a n : Nat} {f : Nat → Outcome ℝ} {g : Nat → ℝ} (h : ∀ i, a ≤ i → i < a + n → f i = .ok (g i)) (v : List ℝ)
    (hv : a + n ≤ v.length) :
    ∃ w, fillLoop a n f v = .ok w ∧ w.length = v.length ∧
      ∀ i, w[i]? = if a ≤ i ∧ i < a + n then some (g i) else v[i]? := by
  induction n with
  | zero => exact ⟨v, by simp [fillLoop], rfl, fun i => by rw [if_neg (by omega)]⟩
  | succ n ih =>
    obtain ⟨w, hw, hl, hi⟩ := ih (fun i h1 h2 => h i h1 (by omega)) (by omega)
    refine ⟨w.set (a + n) (g (a + n)), ?_, by simp [hl], ?_⟩
    · unfold fillLoop at hw ⊢
      rw [List.range'_concat, List.foldlM_append, hw]
      simp only [Outcome.bind_ok, List.foldlM_cons, List.foldlM_nil, one_mul, h (a + n) (by omega) (by omega), Outcome.pure_eq]
      rw [Outcome.set_of_lt (by omega)]; rfl
    · intro i
      rw [List.getElem?_set]
      by_cases hc : a + n = i
      · subst hc; simp; omega
      · rw [if_neg hc, hi]
        by_cases h2 : a ≤ i ∧ i < a + n
        · rw [if_pos h2, if_pos (by omega)]
        · rw [if_neg h2, if_neg (by omega)]

theorem mapM_range_ok {α : Type} {n : Nat} {f : Nat → Outcome α} {g : Nat → α} (h : ∀ i, i < n → f i = .ok (g i)) :
    (List.range n).mapM f = .ok ((List.range n).map g) := by
  induction n with
  | zero => simp
  | succ n ih =>
    rw [List.range_succ, List.mapM_append, ih (fun i hi => h i (by omega))]
    simp [h n (by omega)]

/-- the summand of the Rosenbrock function -/
def rosenR (a b : ℝ) : ℝ := 100 * (a * a - b) * (a * a - b) + (a - 1) * (a - 1)

theorem rosenFitness_ok {dim : Nat} {x : List ℝ} (h : x.length = dim) :
    rosenFitness dim x = .ok [∑ i ∈ range (dim - 1), rosenR (at0 x i) (at0 x (i + 1))] := by
  unfold rosenFitness
  rw [sumLoop_ok (g := fun i => rosenR (at0 x i) (at0 x (i + 1)))]
  · simp
  · intro i hi
    rw [rosenTerm, get_at0 (by omega), get_at0 (by omega)]; rfl

theorem rastFitness_ok (x : List ℝ) :
    rastFitness x = .ok [(∑ i ∈ range x.length, (at0 x i * at0 x i - 10 * Real.cos (2 * Real.pi * at0 x i))) + 10 * (x.length : ℝ)] := by
  unfold rastFitness
  rw [sumLoop_ok (g := fun i => at0 x i * at0 x i - 10 * Real.cos (2 * Real.pi * at0 x i))]
  · simp
  · intro i hi
    rw [rastTerm, get_at0 (by omega)]; rfl

/-- a constraint of luksan_vlcek1 -/
noncomputable def luksanK (a b c : ℝ) : ℝ :=
  3 * b ^ 3 + 2 * c - 5 + Real.sin (b - c) * Real.sin (b + c) + 4 * b - a * Real.exp (a - b) - 3

theorem luksanFitness_ok (x : List ℝ) (h : 2 ≤ x.length) :
    luksanFitness x = .ok ((∑ i ∈ range (x.length - 1), rosenR (at0 x i) (at0 x (i + 1))) ::
      (List.range (x.length - 2)).map (fun i => luksanK (at0 x i) (at0 x (i + 1)) (at0 x (i + 2)))) := by
  unfold luksanFitness
  rw [sumLoop_ok (g := fun i => rosenR (at0 x i) (at0 x (i + 1))),
    mapM_range_ok (g := fun i => luksanK (at0 x i) (at0 x (i + 1)) (at0 x (i + 2)))]
  · simp
  · intro i hi
    rw [luksanCon, get_at0 (by omega), get_at0 (by omega), get_at0 (by omega)]; rfl
  · intro i hi
    rw [luksanTerm, get_at0 (by omega), get_at0 (by omega)]; rfl

theorem ackleyFitness_ok (x : List ℝ) :
    ackleyFitness x = .ok [-20 * Real.exp (-0.2 * Real.sqrt (1 / (x.length : ℝ) * ∑ i ∈ range x.length, at0 x i * at0 x i))
      - Real.exp (1 / (x.length : ℝ) * ∑ i ∈ range x.length, Real.cos (2 * Real.pi * at0 x i)) + 20 + Real.exp 1] := by
  unfold ackleyFitness
  rw [sumLoop_ok (g := fun i => at0 x i * at0 x i), sumLoop_ok (g := fun i => Real.cos (2 * Real.pi * at0 x i))]
  · simp
  · intro i hi
    rw [ackleyCos, get_at0 (by omega)]; rfl
  · intro i hi
    rw [squareTerm, get_at0 (by omega)]; rfl

theorem griewankProd (x : List ℝ) (n : Nat) (hn : n ≤ x.length) :
    (List.range n).foldlM (griewankStep x) 1 = .ok (∏ i ∈ range n, Real.cos (at0 x i / Real.sqrt ((i : ℝ) + 1))) := by
  induction n with
  | zero => simp
  | succ n ih =>
    rw [List.range_succ, List.foldlM_append, ih (by omega)]
    simp only [Outcome.bind_ok, List.foldlM_cons, List.foldlM_nil, griewankStep, get_at0 (show n < x.length by omega), Outcome.pure_eq,
      prod_range_succ]

theorem griewankFitness_ok (x : List ℝ) :
    griewankFitness x = .ok [(∑ i ∈ range x.length, at0 x i * at0 x i) / 4000
      - (∏ i ∈ range x.length, Real.cos (at0 x i / Real.sqrt ((i : ℝ) + 1))) + 1] := by
  unfold griewankFitness
  rw [sumLoop_ok (g := fun i => at0 x i * at0 x i), Outcome.bind_ok, griewankProd x x.length le_rfl]
  · simp
  · intro i hi
    rw [squareTerm, get_at0 (by omega)]; rfl

/-! ## Derivatives in one coordinate -/

/-- 1 for the coordinate itself, 0 for the others -/
def delta (c i : Nat) : ℝ := if i = c then 1 else 0

theorem deriv_at0 {x : List ℝ} {c : Nat} (hc : c < x.length) (i : Nat) (a : ℝ) :
    HasDerivAt (fun t => at0 (x.set c t) i) (delta c i) a := by
  simp only [at0_set hc, delta]
  by_cases h : i = c
  · simp only [if_pos h]; exact hasDerivAt_id a
  · simp only [if_neg h]; exact hasDerivAt_const a _

theorem at0_set_self {x : List ℝ} {c : Nat} (hc : c < x.length) (i : Nat) : at0 (x.set c (at0 x c)) i = at0 x i := by
  rw [at0_set hc]; split
  · rename_i h; rw [h]
  · rfl

theorem sum_delta (n c : Nat) (A : Nat → ℝ) : ∑ i ∈ range n, A i * delta c i = if c < n then A c else 0 := by
  simp only [delta, mul_ite, mul_one, mul_zero, sum_ite_eq', mem_range]

theorem sum_delta_succ (n c : Nat) (A : Nat → ℝ) :
    ∑ i ∈ range n, A i * delta c (i + 1) = if 1 ≤ c ∧ c ≤ n then A (c - 1) else 0 := by
  induction n with
  | zero => simp; omega
  | succ n ih =>
    rw [sum_range_succ, ih, delta]
    by_cases h1 : n + 1 = c
    · subst h1; simp
    · rw [if_neg h1, mul_zero, add_zero]
      by_cases h2 : 1 ≤ c ∧ c ≤ n
      · rw [if_pos h2, if_pos (by omega)]
      · rw [if_neg h2, if_neg (by omega)]

/-- The derivative of the Rosenbrock sum. -/
theorem deriv_rosenSum {x : List ℝ} {c : Nat} (hc : c < x.length) (n : Nat) :
    HasDerivAt (fun t => ∑ i ∈ range n, rosenR (at0 (x.set c t) i) (at0 (x.set c t) (i + 1)))
      ((if c < n then 400 * at0 x c * (at0 x c * at0 x c - at0 x (c + 1)) + 2 * (at0 x c - 1) else 0) +
        (if 1 ≤ c ∧ c ≤ n then -200 * (at0 x (c - 1) * at0 x (c - 1) - at0 x (c - 1 + 1)) else 0)) (at0 x c) := by
  rw [← sum_delta n c (fun c => 400 * at0 x c * (at0 x c * at0 x c - at0 x (c + 1)) + 2 * (at0 x c - 1)),
    ← sum_delta_succ n c (fun i => -200 * (at0 x i * at0 x i - at0 x (i + 1))), ← sum_add_distrib]
  refine HasDerivAt.fun_sum (fun i _ => ?_)
  have h1 := deriv_at0 hc i (at0 x c)
  have h2 := deriv_at0 hc (i + 1) (at0 x c)
  have hA := (h1.mul h1).sub h2
  have hB := h1.sub_const 1
  have h := ((hA.const_mul 100).mul hA).add (hB.mul hB)
  unfold rosenR
  refine h.congr_deriv ?_
  simp only [Pi.mul_apply, Pi.sub_apply, at0_set_self hc]
  ring

end Verif.Analytic
