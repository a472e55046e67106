import Verif.Proof.Analytic
import Mathlib.Algebra.Order.BigOperators.Ring.Finset
import Mathlib.Tactic.NormNum
import Mathlib.Tactic.Positivity

/-!
# C81: the best known solution of the test problems is the global minimiser
-/

set_option autoImplicit false

namespace Verif.Props

open Verif Verif.Analytic Finset

/-- `best` is in the box, its fitness is 0, and every other vector of that size, in the box or not, has a positive fitness. -/
def OnlyMinimum (fit : List ℝ → Outcome (List ℝ)) (bounds : List ℝ × List ℝ) (best : List ℝ) : Prop :=
  best.length = bounds.1.length ∧ best.length = bounds.2.length ∧
  (∀ (i : Nat) (l b u : ℝ), bounds.1[i]? = some l → best[i]? = some b → bounds.2[i]? = some u → l ≤ b ∧ b ≤ u) ∧
  fit best = .ok [0] ∧
  ∀ x : List ℝ, x.length = best.length → x ≠ best → ∃ v, fit x = .ok [v] ∧ 0 < v

theorem at0_replicate {n i : Nat} (h : i < n) (a : ℝ) : at0 (List.replicate n a) i = a := at0_some (by simp [h])

theorem ext_at0 {x : List ℝ} {n : Nat} {a : ℝ} (h : x.length = n) (h1 : ∀ i, i < n → at0 x i = a) : x = List.replicate n a := by
  rw [List.eq_replicate_iff]
  refine ⟨h, fun b hb => ?_⟩
  obtain ⟨i, hi⟩ := List.mem_iff_getElem?.mp hb
  rw [← h1 i (by have := (List.getElem?_eq_some_iff.mp hi).1; omega), at0_some hi]

theorem onlyMinimum_of {fit : List ℝ → Outcome (List ℝ)} {n : Nat} {l u b : ℝ} (F : List ℝ → ℝ) (hl : l ≤ b) (hu : b ≤ u)
    (hf : ∀ x, x.length = n → fit x = .ok [F x]) (h0 : F (List.replicate n b) = 0) (hn : ∀ x, x.length = n → 0 ≤ F x)
    (h1 : ∀ x, x.length = n → F x = 0 → ∀ i, i < n → at0 x i = b) :
    OnlyMinimum fit (List.replicate n l, List.replicate n u) (List.replicate n b) := by
  refine ⟨by simp, by simp, ?_, ?_, ?_⟩
  · intro i l' b' u' e1 e2 e3
    rw [List.getElem?_replicate] at e1 e2 e3
    split at e1
    · rename_i h
      rw [if_pos h] at e2 e3
      cases e1; cases e2; cases e3
      exact ⟨hl, hu⟩
    · cases e1
  · rw [hf _ (by simp), h0]
  · intro x hx hne
    rw [List.length_replicate] at hx
    refine ⟨F x, hf x hx, lt_of_le_of_ne (hn x hx) (fun h => hne ?_)⟩
    exact ext_at0 hx (h1 x hx h.symm)

theorem rosenR_nonneg (a b : ℝ) : 0 ≤ rosenR a b := by
  unfold rosenR; nlinarith [mul_self_nonneg (a * a - b), mul_self_nonneg (a - 1)]

theorem rosenR_zero {a b : ℝ} (h : rosenR a b = 0) : a = 1 ∧ b = 1 := by
  unfold rosenR at h
  have h1 : (a - 1) * (a - 1) = 0 := by nlinarith [mul_self_nonneg (a * a - b), mul_self_nonneg (a - 1)]
  have ha : a = 1 := by have := mul_self_eq_zero.mp h1; linarith
  subst ha
  have h2 : (1 * 1 - b) * (1 * 1 - b) = 0 := by nlinarith [mul_self_nonneg (1 * 1 - b)]
  have := mul_self_eq_zero.mp h2
  exact ⟨rfl, by linarith⟩

/-- C81 (rosenbrock) -/
theorem C81_rosenbrock (dim d : Nat) (h : rosenCtor dim = .ok d) : OnlyMinimum (rosenFitness d) (rosenBounds d) (rosenBest d) := by
  have hd : 2 ≤ d := by
    unfold rosenCtor at h; split at h
    · cases h
    · cases h; omega
  refine onlyMinimum_of (fun x => ∑ i ∈ range (d - 1), rosenR (at0 x i) (at0 x (i + 1))) (by norm_num) (by norm_num)
    (fun x hx => rosenFitness_ok hx) ?_ ?_ ?_
  · refine sum_eq_zero (fun i hi => ?_)
    have := mem_range.mp hi
    rw [at0_replicate (by omega), at0_replicate (by omega)]
    norm_num [rosenR]
  · intro x _
    exact sum_nonneg (fun i _ => rosenR_nonneg _ _)
  · intro x hx hs i hi
    rw [sum_eq_zero_iff_of_nonneg (fun i _ => rosenR_nonneg _ _)] at hs
    by_cases h1 : i = 0
    · subst h1
      exact (rosenR_zero (hs 0 (mem_range.mpr (by omega)))).1
    · have := (rosenR_zero (hs (i - 1) (mem_range.mpr (by omega)))).2
      rwa [show i - 1 + 1 = i by omega] at this

theorem sq_sum_zero {x : List ℝ} {n : Nat} (h : ∑ i ∈ range n, at0 x i * at0 x i = 0) : ∀ i, i < n → at0 x i = 0 := by
  intro i hi
  rw [sum_eq_zero_iff_of_nonneg (fun i _ => mul_self_nonneg _)] at h
  exact mul_self_eq_zero.mp (h i (mem_range.mpr hi))

theorem sq_sum_nonneg (x : List ℝ) (n : Nat) : 0 ≤ ∑ i ∈ range n, at0 x i * at0 x i := sum_nonneg (fun _ _ => mul_self_nonneg _)

/-- C81 (rastrigin) -/
theorem C81_rastrigin (d : Nat) : OnlyMinimum rastFitness (rastBounds d) (zeroBest d) := by
  have hdec : ∀ x : List ℝ, x.length = d → rastFitness x =
      .ok [(∑ i ∈ range d, at0 x i * at0 x i) + ∑ i ∈ range d, 10 * (1 - Real.cos (2 * Real.pi * at0 x i))] := by
    intro x hx
    rw [rastFitness_ok, hx]
    congr 2
    rw [← sum_add_distrib, ← sub_eq_zero]
    have : (10 * (d : ℝ)) = ∑ i ∈ range d, (10 : ℝ) := by simp [mul_comm]
    rw [this, ← sum_add_distrib, ← sum_sub_distrib]
    exact sum_eq_zero (fun i _ => by ring)
  have hc : ∀ x : List ℝ, 0 ≤ ∑ i ∈ range d, 10 * (1 - Real.cos (2 * Real.pi * at0 x i)) := fun x =>
    sum_nonneg (fun i _ => by have := Real.cos_le_one (2 * Real.pi * at0 x i); linarith)
  refine onlyMinimum_of _ (by norm_num) (by norm_num) hdec ?_ (fun x _ => add_nonneg (sq_sum_nonneg x d) (hc x)) ?_
  · rw [sum_eq_zero, sum_eq_zero, add_zero]
    · intro i hi; rw [at0_replicate (mem_range.mp hi)]; simp
    · intro i hi; rw [at0_replicate (mem_range.mp hi)]; simp
  · intro x hx h
    exact sq_sum_zero (by linarith [sq_sum_nonneg x d, hc x])

/-- C81 (ackley) -/
theorem C81_ackley (dim d : Nat) (h : rastCtor dim = .ok d) : OnlyMinimum ackleyFitness (ackleyBounds d) (zeroBest d) := by
  have hd : 1 ≤ d := by
    unfold rastCtor at h; split at h
    · cases h
    · cases h; omega
  have hd0 : (0 : ℝ) < d := by exact_mod_cast hd
  have h1 : ∀ x : List ℝ, Real.exp (-0.2 * Real.sqrt (1 / (d : ℝ) * ∑ i ∈ range d, at0 x i * at0 x i)) ≤ 1 := by
    intro x
    rw [Real.exp_le_one_iff]
    have := Real.sqrt_nonneg (1 / (d : ℝ) * ∑ i ∈ range d, at0 x i * at0 x i)
    linarith
  have h2 : ∀ x : List ℝ, Real.exp (1 / (d : ℝ) * ∑ i ∈ range d, Real.cos (2 * Real.pi * at0 x i)) ≤ Real.exp 1 := by
    intro x
    rw [Real.exp_le_exp, one_div_mul_eq_div, div_le_one hd0]
    calc _ ≤ ∑ i ∈ range d, (1 : ℝ) := sum_le_sum (fun i _ => Real.cos_le_one _)
      _ = d := by simp
  refine onlyMinimum_of (fun x => -20 * Real.exp (-0.2 * Real.sqrt (1 / (d : ℝ) * ∑ i ∈ range d, at0 x i * at0 x i))
      - Real.exp (1 / (d : ℝ) * ∑ i ∈ range d, Real.cos (2 * Real.pi * at0 x i)) + 20 + Real.exp 1) (by norm_num) (by norm_num)
    (fun x hx => by rw [ackleyFitness_ok, hx]) ?_ (fun x _ => by have := h1 x; have := h2 x; linarith) ?_
  · have e1 : ∑ i ∈ range d, at0 (List.replicate d 0) i * at0 (List.replicate d 0) i = 0 :=
      sum_eq_zero (fun i hi => by rw [at0_replicate (mem_range.mp hi)]; simp)
    have e2 : ∑ i ∈ range d, Real.cos (2 * Real.pi * at0 (List.replicate d 0) i) = d := by
      rw [sum_congr rfl (g := fun _ => (1 : ℝ)) (fun i hi => by rw [at0_replicate (mem_range.mp hi)]; simp)]
      simp
    simp only [e1, e2, mul_zero, Real.sqrt_zero, Real.exp_zero, one_div_mul_eq_div, div_self hd0.ne']
    ring
  · intro x hx h
    refine sq_sum_zero ?_
    have e : Real.exp (-0.2 * Real.sqrt (1 / (d : ℝ) * ∑ i ∈ range d, at0 x i * at0 x i)) = 1 := by
      have := h1 x; have := h2 x; linarith
    rw [Real.exp_eq_one_iff] at e
    have hs : Real.sqrt (1 / (d : ℝ) * ∑ i ∈ range d, at0 x i * at0 x i) = 0 := by linarith
    rw [Real.sqrt_eq_zero (mul_nonneg (by positivity) (sq_sum_nonneg x d))] at hs
    rcases mul_eq_zero.mp hs with h' | h'
    · have : (1 : ℝ) / d ≠ 0 := by positivity
      exact absurd h' this
    · exact h'

/-- C81 (griewank) -/
theorem C81_griewank (d : Nat) : OnlyMinimum griewankFitness (griewankBounds d) (zeroBest d) := by
  have h1 : ∀ x : List ℝ, ∏ i ∈ range d, Real.cos (at0 x i / Real.sqrt ((i : ℝ) + 1)) ≤ 1 := by
    intro x
    refine (le_abs_self _).trans ?_
    rw [abs_prod]
    exact prod_le_one (fun i _ => abs_nonneg _) (fun i _ => Real.abs_cos_le_one _)
  refine onlyMinimum_of (fun x => (∑ i ∈ range d, at0 x i * at0 x i) / 4000
      - (∏ i ∈ range d, Real.cos (at0 x i / Real.sqrt ((i : ℝ) + 1))) + 1) (by norm_num) (by norm_num)
    (fun x hx => by rw [griewankFitness_ok, hx]) ?_ (fun x _ => by have := h1 x; have := sq_sum_nonneg x d; linarith) ?_
  · have e1 : ∑ i ∈ range d, at0 (List.replicate d 0) i * at0 (List.replicate d 0) i = 0 :=
      sum_eq_zero (fun i hi => by rw [at0_replicate (mem_range.mp hi)]; simp)
    have e2 : ∏ i ∈ range d, Real.cos (at0 (List.replicate d 0) i / Real.sqrt ((i : ℝ) + 1)) = 1 :=
      prod_eq_one (fun i hi => by rw [at0_replicate (mem_range.mp hi)]; simp)
    simp only [e1, e2]
    norm_num
  · intro x hx h
    exact sq_sum_zero (by have := h1 x; have := sq_sum_nonneg x d; linarith)

/-! hock_schittkowski_71: the published point has decimals and does not meet the equality constraint exactly. -/

/-- C81 (hock_schittkowski_71). The best known point misses both constraints by less than 1e-6, but it misses them: with the default
tolerances, which are zero, it is not feasible. -/
theorem C81_hs71 : ∃ f e i : ℝ, hsFitness hsBest = .ok [f, e, i] ∧ e ≠ 0 ∧ 0 < i ∧ |e| < 1e-6 ∧ i < 1e-6 ∧ |f - 17.014017| < 1e-6 := by
  refine ⟨_, _, _, rfl, ?_, ?_, ?_, ?_, ?_⟩
  · norm_num
  · norm_num
  · rw [abs_lt]; norm_num
  · norm_num
  · rw [abs_lt]; norm_num

example : OnlyMinimum (rosenFitness 5) (rosenBounds 5) (rosenBest 5) := C81_rosenbrock 5 5 rfl

example : OnlyMinimum ackleyFitness (ackleyBounds 3) (zeroBest 3) := C81_ackley 3 3 rfl

end Verif.Props
