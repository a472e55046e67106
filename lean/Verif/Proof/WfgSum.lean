import Verif.Proof.WfgFun
import Mathlib.Data.Int.ModEq
import Mathlib.Data.Nat.ModEq
import Mathlib.Algebra.Order.BigOperators.Group.Finset
import Mathlib.Algebra.BigOperators.Ring.Finset
import Mathlib.Tactic.Positivity

/-!
# The reductions of the WFG problems: ranges and zeros
-/

set_option autoImplicit false

namespace Verif.Wfg

open Verif Verif.Spec Finset

theorem wMean_range {w y : Nat → ℝ} {lo len : Nat} (hl : 0 < len) (hw : ∀ j, j < len → 0 < w (lo + j))
    (hy : ∀ j, j < len → In01 (y (lo + j))) : In01 (Huband.wMean w y lo len) := by
  have hs : 0 < ∑ j ∈ range len, w (lo + j) := sum_pos (fun j hj => hw j (mem_range.mp hj)) ⟨0, mem_range.mpr hl⟩
  refine ⟨div_nonneg (sum_nonneg fun j hj => mul_nonneg (hw j (mem_range.mp hj)).le (hy j (mem_range.mp hj)).1) hs.le, ?_⟩
  unfold Huband.wMean
  rw [div_le_one hs]
  exact sum_le_sum fun j hj => mul_le_of_le_one_right (hw j (mem_range.mp hj)).le (hy j (mem_range.mp hj)).2

theorem wMean_zero {w y : Nat → ℝ} {lo len : Nat} (hl : 0 < len) (hw : ∀ j, j < len → 0 < w (lo + j))
    (hy : ∀ j, j < len → 0 ≤ y (lo + j)) : Huband.wMean w y lo len = 0 ↔ ∀ j, j < len → y (lo + j) = 0 := by
  have hs : 0 < ∑ j ∈ range len, w (lo + j) := sum_pos (fun j hj => hw j (mem_range.mp hj)) ⟨0, mem_range.mpr hl⟩
  unfold Huband.wMean
  rw [div_eq_zero_iff, or_iff_left hs.ne',
    sum_eq_zero_iff_of_nonneg (fun j hj => mul_nonneg (hw j (mem_range.mp hj)).le (hy j (mem_range.mp hj)))]
  constructor
  · intro h j hj
    exact (mul_eq_zero.mp (h j (mem_range.mpr hj))).resolve_left (hw j hj).ne'
  · intro h j hj
    rw [h j (mem_range.mp hj), mul_zero]

theorem mean_wMean (y : Nat → ℝ) (lo len : Nat) : Huband.mean y lo len = Huband.wMean (fun _ => 1) y lo len := by
  unfold Huband.mean Huband.wMean
  simp

theorem mean_range {y : Nat → ℝ} {lo len : Nat} (hl : 0 < len) (hy : ∀ j, j < len → In01 (y (lo + j))) :
    In01 (Huband.mean y lo len) := by
  rw [mean_wMean]; exact wMean_range hl (fun _ _ => one_pos) hy

theorem mean_zero {y : Nat → ℝ} {lo len : Nat} (hl : 0 < len) (hy : ∀ j, j < len → 0 ≤ y (lo + j)) :
    Huband.mean y lo len = 0 ↔ ∀ j, j < len → y (lo + j) = 0 := by
  rw [mean_wMean]; exact wMean_zero hl (fun _ _ => one_pos) hy

/-- a sum over a cycle does not depend on where it starts -/
theorem sum_cycle {n : Nat} (c : Nat) (g : Nat → ℝ) : ∑ i ∈ range n, g ((c + i) % n) = ∑ i ∈ range n, g i := by
  by_cases hn : n = 0
  · subst hn; simp
  have inj : Set.InjOn (fun i => (c + i) % n) (range n : Set Nat) := by
    intro a ha b hb h
    have ha' : a < n := by simpa using ha
    have hb' : b < n := by simpa using hb
    exact Nat.ModEq.eq_of_lt_of_lt (Nat.ModEq.add_left_cancel' c h) ha' hb'
  have maps : Set.MapsTo (fun i => (c + i) % n) (range n : Set Nat) (range n : Set Nat) := fun a _ => by
    simpa using Nat.mod_lt _ (Nat.pos_of_ne_zero hn)
  exact sum_nbij (fun i => (c + i) % n) (fun a ha => by have := maps (by simpa using ha); simpa using this) inj
    (surjOn_of_injOn_of_card_le _ maps inj le_rfl) (fun _ _ => rfl)

/-- the numerator of the non-separable reduction of all its values -/
noncomputable def spread (y : Nat → ℝ) (n : Nat) : ℝ := ∑ j ∈ range n, y j + ∑ j ∈ range n, ∑ i ∈ range n, |y j - y i|

theorem numer_eq (y : Nat → ℝ) (n : Nat) :
    ∑ j ∈ range n, (y j + ∑ i ∈ range (n - 1), |y j - y ((j + 1 + i) % n)|) = spread y n := by
  rw [sum_add_distrib, spread]
  congr 1
  refine sum_congr rfl fun j hj => ?_
  have hj := mem_range.mp hj
  rw [← sum_cycle (j + 1) (fun i => |y j - y i|)]
  obtain ⟨m, rfl⟩ : ∃ m, n = m + 1 := ⟨n - 1, by omega⟩
  rw [sum_range_succ, Nat.add_sub_cancel]
  have : (j + 1 + m) % (m + 1) = j := by
    rw [show j + 1 + m = j + (m + 1) by omega, Nat.add_mod_right, Nat.mod_eq_of_lt hj]
  rw [this, sub_self, abs_zero, add_zero]

theorem spread_nonneg {y : Nat → ℝ} {n : Nat} (h : ∀ j, j < n → 0 ≤ y j) : 0 ≤ spread y n :=
  add_nonneg (sum_nonneg fun j hj => h j (mem_range.mp hj)) (sum_nonneg fun _ _ => sum_nonneg fun _ _ => abs_nonneg _)

theorem spread_zero {y : Nat → ℝ} {n : Nat} (h : ∀ j, j < n → 0 ≤ y j) : spread y n = 0 ↔ ∀ j, j < n → y j = 0 := by
  constructor
  · intro e
    have h1 : 0 ≤ ∑ j ∈ range n, y j := sum_nonneg fun j hj => h j (mem_range.mp hj)
    have h2 : 0 ≤ ∑ j ∈ range n, ∑ i ∈ range n, |y j - y i| := sum_nonneg fun _ _ => sum_nonneg fun _ _ => abs_nonneg _
    have h3 : ∑ j ∈ range n, y j = 0 := by unfold spread at e; linarith
    intro j hj
    exact (sum_eq_zero_iff_of_nonneg fun j hj => h j (mem_range.mp hj)).mp h3 j (mem_range.mpr hj)
  · intro e
    unfold spread
    rw [sum_eq_zero fun j hj => e j (mem_range.mp hj), zero_add]
    exact sum_eq_zero fun j hj => sum_eq_zero fun i hi => by rw [e j (mem_range.mp hj), e i (mem_range.mp hi), sub_self, abs_zero]

/-- one coordinate replaced -/
def upd (y : Nat → ℝ) (c : Nat) (a : ℝ) : Nat → ℝ := fun j => if j = c then a else y j

theorem abs_mix {t a : ℝ} (h : In01 t) : |t - a| ≤ t * |1 - a| + (1 - t) * |0 - a| := by
  have : t - a = t * (1 - a) + (1 - t) * (0 - a) := by ring
  rw [this]
  refine (abs_add_le _ _).trans ?_
  rw [abs_mul, abs_mul, abs_of_nonneg h.1, abs_of_nonneg (by linarith [h.2] : 0 ≤ 1 - t)]

theorem spread_mix {y : Nat → ℝ} {n c : Nat} (h : In01 (y c)) :
    spread y n ≤ y c * spread (upd y c 1) n + (1 - y c) * spread (upd y c 0) n := by
  have e1 : ∀ j, y j = y c * upd y c 1 j + (1 - y c) * upd y c 0 j := by
    intro j; unfold upd
    by_cases hj : j = c
    · subst hj; simp
    · rw [if_neg hj, if_neg hj]; ring
  have e2 : ∀ j i, |y j - y i| ≤ y c * |upd y c 1 j - upd y c 1 i| + (1 - y c) * |upd y c 0 j - upd y c 0 i| := by
    intro j i; unfold upd
    by_cases hj : j = c <;> by_cases hi : i = c
    · subst hj; subst hi; simp
    · subst hj; rw [if_pos rfl, if_neg hi, if_pos rfl, if_neg hi]; exact abs_mix h
    · subst hi; rw [if_pos rfl, if_neg hj, if_pos rfl, if_neg hj, abs_sub_comm, abs_sub_comm (y j) 1, abs_sub_comm (y j) 0]
      exact abs_mix h
    · rw [if_neg hj, if_neg hi, if_neg hj, if_neg hi]; apply le_of_eq; ring
  unfold spread
  have s1 : ∑ j ∈ range n, y j = y c * ∑ j ∈ range n, upd y c 1 j + (1 - y c) * ∑ j ∈ range n, upd y c 0 j := by
    rw [mul_sum, mul_sum, ← sum_add_distrib]; exact sum_congr rfl fun j _ => e1 j
  have s2 : ∑ j ∈ range n, ∑ i ∈ range n, |y j - y i| ≤ y c * ∑ j ∈ range n, ∑ i ∈ range n, |upd y c 1 j - upd y c 1 i|
      + (1 - y c) * ∑ j ∈ range n, ∑ i ∈ range n, |upd y c 0 j - upd y c 0 i| := by
    rw [mul_sum, mul_sum, ← sum_add_distrib]
    refine sum_le_sum fun j _ => ?_
    rw [mul_sum, mul_sum, ← sum_add_distrib]
    exact sum_le_sum fun i _ => e2 j i
  rw [s1]; linarith

/-- the spread is largest at a corner of the unit cube -/
theorem spread_corner {n : Nat} : ∀ (c : Nat) (y : Nat → ℝ), (∀ j, In01 (y j)) →
    ∃ b : Nat → ℝ, (∀ j, In01 (b j)) ∧ (∀ j, j < c → b j = 0 ∨ b j = 1) ∧ spread y n ≤ spread b n := by
  intro c
  induction c with
  | zero => intro y hy; exact ⟨y, hy, fun j hj => absurd hj (Nat.not_lt_zero j), le_rfl⟩
  | succ c ih =>
    intro y hy
    obtain ⟨b, hb, hb01, hle⟩ := ih y hy
    have hm := spread_mix (n := n) (hb c)
    have key : spread b n ≤ spread (upd b c 1) n ∨ spread b n ≤ spread (upd b c 0) n := by
      by_contra hcon
      push Not at hcon
      obtain ⟨k1, k2⟩ := hcon
      obtain ⟨g0, g1⟩ := hb c
      rcases eq_or_lt_of_le g0 with g | g
      · rw [← g] at hm; linarith
      · nlinarith
    have upin : ∀ a : ℝ, In01 a → ∀ j, In01 (upd b c a j) := by
      intro a ha j; unfold upd; split_ifs
      · exact ha
      · exact hb j
    have up01 : ∀ a : ℝ, (a = 0 ∨ a = 1) → ∀ j, j < c + 1 → upd b c a j = 0 ∨ upd b c a j = 1 := by
      intro a ha j hj; unfold upd; split_ifs with h
      · exact ha
      · exact hb01 j (by omega)
    rcases key with k | k
    · exact ⟨upd b c 1, upin 1 ⟨by norm_num, le_rfl⟩, up01 1 (Or.inr rfl), hle.trans k⟩
    · exact ⟨upd b c 0, upin 0 ⟨le_rfl, by norm_num⟩, up01 0 (Or.inl rfl), hle.trans k⟩

theorem corner_value {n : Nat} {b : Nat → ℝ} (hb : ∀ j, j < n → b j = 0 ∨ b j = 1) :
    ∃ m : ℤ, spread b n = m * (1 + 2 * n - 2 * m) := by
  have hm : ∃ m : ℤ, ∑ j ∈ range n, b j = m := by
    refine ⟨∑ j ∈ range n, if b j = 1 then 1 else 0, ?_⟩
    push_cast
    refine sum_congr rfl fun j hj => ?_
    rcases hb j (mem_range.mp hj) with h | h <;> rw [h] <;> norm_num
  obtain ⟨m, hm⟩ := hm
  refine ⟨m, ?_⟩
  have h2 : ∑ j ∈ range n, ∑ i ∈ range n, |b j - b i| = ∑ j ∈ range n, ∑ i ∈ range n, (b j + b i - 2 * (b j * b i)) := by
    refine sum_congr rfl fun j hj => sum_congr rfl fun i hi => ?_
    rcases hb j (mem_range.mp hj) with h | h <;> rcases hb i (mem_range.mp hi) with h' | h' <;> rw [h, h'] <;> norm_num
  rw [spread, h2]
  have h3 : ∀ j, ∑ i ∈ range n, (b j + b i - 2 * (b j * b i)) = n * b j + m - 2 * b j * m := by
    intro j
    rw [sum_sub_distrib, sum_add_distrib, ← mul_sum, ← mul_sum, hm]; simp; ring
  simp only [h3]
  rw [sum_sub_distrib, sum_add_distrib, ← mul_sum, ← sum_mul, ← mul_sum, hm]
  simp; ring

theorem int_half {n : Nat} (m : ℤ) : m * (1 + 2 * n - 2 * m) ≤ (Huband.half n : ℤ) * (1 + 2 * n - 2 * Huband.half n) := by
  unfold Huband.half
  rcases Nat.even_or_odd' n with ⟨h, rfl | rfl⟩
  · have e : (2 * h + 1) / 2 = h := by omega
    rw [e]
    have : 0 ≤ ((h : ℤ) - m) * (1 + 2 * ((h : ℤ) - m)) := by
      rcases le_or_gt 0 ((h : ℤ) - m) with g | g
      · exact mul_nonneg g (by omega)
      · exact mul_nonneg_of_nonpos_of_nonpos g.le (by omega)
    push_cast; nlinarith
  · have e : (2 * h + 1 + 1) / 2 = h + 1 := by omega
    rw [e]
    have : 0 ≤ ((h : ℤ) + 1 - m) * (2 * ((h : ℤ) + 1 - m) - 1) := by
      rcases le_or_gt ((h : ℤ) + 1 - m) 0 with g | g
      · exact mul_nonneg_of_nonpos_of_nonpos g (by omega)
      · exact mul_nonneg g.le (by omega)
    push_cast; nlinarith

theorem spread_le {n : Nat} {y : Nat → ℝ} (hy : ∀ j, j < n → In01 (y j)) :
    spread y n ≤ (Huband.half n : ℝ) * (1 + 2 * (n : ℝ) - 2 * (Huband.half n : ℝ)) := by
  let y' : Nat → ℝ := fun j => if j < n then y j else 0
  have e : spread y n = spread y' n := by
    unfold spread
    congr 1
    · exact sum_congr rfl fun j hj => (if_pos (mem_range.mp hj)).symm
    · refine sum_congr rfl fun j hj => sum_congr rfl fun i hi => ?_
      show |y j - y i| = |(if j < n then y j else 0) - (if i < n then y i else 0)|
      rw [if_pos (mem_range.mp hj), if_pos (mem_range.mp hi)]
  have hy' : ∀ j, In01 (y' j) := by
    intro j
    show In01 (if j < n then y j else 0)
    split_ifs with h
    · exact hy j h
    · exact ⟨le_rfl, by norm_num⟩
  obtain ⟨b, -, hb01, hle⟩ := spread_corner (n := n) n y' hy'
  obtain ⟨m, hm⟩ := corner_value hb01
  rw [e]
  refine hle.trans ?_
  rw [hm]
  exact_mod_cast int_half (n := n) m

theorem half_div_pos {n : Nat} (hn : 0 < n) : 0 < (Huband.half n : ℝ) * (1 + 2 * (n : ℝ) - 2 * (Huband.half n : ℝ)) := by
  have h1 : 0 < Huband.half n := by unfold Huband.half; omega
  have h2 : 2 * Huband.half n ≤ n + 1 := by unfold Huband.half; omega
  have h1' : (0 : ℝ) < Huband.half n := by exact_mod_cast h1
  have h2' : 2 * (Huband.half n : ℝ) ≤ n + 1 := by exact_mod_cast h2
  have hn' : (0 : ℝ) < n := by exact_mod_cast hn
  exact mul_pos h1' (by linarith)

theorem nonsep_eq {y : Nat → ℝ} {lo n : Nat} (hn : 0 < n) : Huband.nonsep n y lo n =
    spread (fun j => y (lo + j)) n / ((Huband.half n : ℝ) * (1 + 2 * (n : ℝ) - 2 * (Huband.half n : ℝ))) := by
  have hn' : (n : ℝ) ≠ 0 := by exact_mod_cast hn.ne'
  rw [Huband.nonsep, div_self hn', one_mul, ← numer_eq (fun j => y (lo + j)) n]

theorem nonsep_range {y : Nat → ℝ} {lo n : Nat} (hn : 0 < n) (hy : ∀ j, j < n → In01 (y (lo + j))) : In01 (Huband.nonsep n y lo n) := by
  rw [nonsep_eq hn]
  refine ⟨div_nonneg (spread_nonneg fun j hj => (hy j hj).1) (half_div_pos hn).le, ?_⟩
  rw [div_le_one (half_div_pos hn)]
  exact spread_le hy

theorem nonsep_zero {y : Nat → ℝ} {lo n : Nat} (hn : 0 < n) (hy : ∀ j, j < n → 0 ≤ y (lo + j)) :
    Huband.nonsep n y lo n = 0 ↔ ∀ j, j < n → y (lo + j) = 0 := by
  rw [nonsep_eq hn, div_eq_zero_iff, or_iff_left (half_div_pos hn).ne']
  exact spread_zero hy

end Verif.Wfg
