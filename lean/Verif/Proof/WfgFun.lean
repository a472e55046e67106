import Verif.Model.Wfg
import Verif.Spec.Wfg
import Mathlib.Tactic.Linarith
import Mathlib.Tactic.FieldSimp
import Mathlib.Tactic.LinearCombination
import Mathlib.Analysis.SpecialFunctions.Trigonometric.Bounds

/-!
# The functions of one variable of the WFG problems: floors written case by case, ranges and zeros
-/

set_option autoImplicit false

namespace Verif.Wfg

open Verif Verif.Spec Finset

theorem flr_zero {a : ℝ} (h0 : 0 ≤ a) (h1 : a < 1) : flr a = 0 := by
  have : ⌊a⌋ = 0 := Int.floor_eq_iff.mpr ⟨by push_cast; linarith, by push_cast; linarith⟩
  rw [flr, this]; norm_num

theorem flr_neg {a : ℝ} (h0 : -1 ≤ a) (h1 : a < 0) : flr a = -1 := by
  have : ⌊a⌋ = -1 := Int.floor_eq_iff.mpr ⟨by push_cast; linarith, by push_cast; linarith⟩
  rw [flr, this]; norm_num

/-- between 0 and 1 -/
def In01 (a : ℝ) : Prop := 0 ≤ a ∧ a ≤ 1

theorem sLinear_eq {y : ℝ} (hy : In01 y) : sLinear y 0.35 = Huband.sLinear 0.35 y := by
  obtain ⟨h0, h1⟩ := hy
  unfold sLinear Huband.sLinear
  by_cases h : y ≤ 0.35
  · rw [if_pos h, flr_zero (by linarith) (by linarith), abs_of_nonpos (by linarith : y - 0.35 ≤ 0), abs_of_nonneg (by norm_num)]
    ring
  · rw [if_neg h]
    push Not at h
    rw [flr_neg (by linarith) (by linarith), abs_of_nonneg (by linarith : 0 ≤ y - 0.35), abs_of_nonpos (by norm_num)]
    norm_num

theorem hLinear_range {y : ℝ} (hy : In01 y) : In01 (Huband.sLinear 0.35 y) := by
  obtain ⟨h0, h1⟩ := hy
  unfold Huband.sLinear
  by_cases h : y ≤ 0.35
  · rw [if_pos h]
    exact ⟨div_nonneg (by linarith) (by norm_num), by rw [div_le_one (by norm_num)]; linarith⟩
  · rw [if_neg h]
    push Not at h
    exact ⟨div_nonneg (by linarith) (by norm_num), by rw [div_le_one (by norm_num)]; linarith⟩

theorem hLinear_zero {y : ℝ} : Huband.sLinear 0.35 y = 0 ↔ y = 0.35 := by
  unfold Huband.sLinear
  by_cases h : y ≤ 0.35
  · rw [if_pos h, div_eq_zero_iff]
    constructor
    · rintro (h | h)
      · linarith
      · norm_num at h
    · intro h; left; linarith
  · rw [if_neg h, div_eq_zero_iff]
    constructor
    · rintro (h | h)
      · linarith
      · norm_num at h
    · intro h; left; linarith

theorem bFlat_eq {y : ℝ} (hy : In01 y) : bFlat y 0.8 0.75 0.85 = Huband.bFlat 0.8 0.75 0.85 y := by
  obtain ⟨h0, h1⟩ := hy
  unfold bFlat Huband.bFlat
  by_cases h : y < 0.75
  · rw [if_pos h, flr_neg (by linarith) (by linarith), flr_zero (by linarith) (by linarith), min_self, min_eq_right (by norm_num)]
    field_simp; ring
  · rw [if_neg h]
    push Not at h
    rw [flr_zero (a := y - 0.75) (by linarith) (by linarith), min_self]
    by_cases h' : y ≤ 0.85
    · rw [if_pos h', flr_zero (by linarith) (by linarith), min_self]; ring
    · rw [if_neg h']
      push Not at h'
      rw [flr_neg (by linarith) (by linarith), min_eq_right (by norm_num)]; ring

theorem flat_low (y : ℝ) : 0.8 * y / 0.75 = 16 / 15 * y := by ring

theorem flat_high (y : ℝ) : 0.8 + (1 - 0.8) * (y - 0.85) / (1 - 0.85) = 0.8 + 4 / 3 * (y - 0.85) := by
  norm_num; ring

theorem hFlat_range {y : ℝ} (hy : In01 y) : In01 (Huband.bFlat 0.8 0.75 0.85 y) := by
  obtain ⟨h0, h1⟩ := hy
  unfold Huband.bFlat
  split_ifs with h h'
  · rw [flat_low]; constructor <;> linarith
  · constructor <;> norm_num
  · push Not at h'
    rw [flat_high]; constructor <;> linarith

theorem hFlat_zero {y : ℝ} (hy : In01 y) : Huband.bFlat 0.8 0.75 0.85 y = 0 ↔ y = 0 := by
  obtain ⟨h0, h1⟩ := hy
  unfold Huband.bFlat
  split_ifs with h h'
  · rw [flat_low]; constructor <;> intro h <;> linarith
  · constructor
    · intro h; norm_num at h
    · intro h; linarith
  · push Not at h'
    rw [flat_high]; constructor <;> intro h <;> linarith

theorem bParam_eq {y u : ℝ} (hu : In01 u) : bParam y u (0.98 / 49.98) 0.02 50 = Huband.bias u y := by
  obtain ⟨h0, h1⟩ := hu
  unfold bParam Huband.bias Huband.bParam Huband.expo
  congr 1
  by_cases h : u ≤ 1 / 2
  · rw [if_pos h, flr_zero (by linarith) (by linarith), abs_of_nonneg (by norm_num)]; ring
  · rw [if_neg h]
    push Not at h
    rw [flr_neg (by linarith) (by linarith), abs_of_nonpos (by norm_num)]; ring

theorem expo_range {u : ℝ} (hu : In01 u) : 0.02 ≤ Huband.expo (0.98 / 49.98) 0.02 50 u ∧ Huband.expo (0.98 / 49.98) 0.02 50 u ≤ 50 := by
  obtain ⟨h0, h1⟩ := hu
  unfold Huband.expo
  split_ifs with h
  · constructor <;> linarith
  · push Not at h
    constructor <;> linarith

theorem bias_range {u y : ℝ} (hu : In01 u) (hy : In01 y) : In01 (Huband.bias u y) := by
  have he := (expo_range hu).1
  exact ⟨Real.rpow_nonneg hy.1 _, Real.rpow_le_one hy.1 hy.2 (by linarith)⟩

/-- the inverse of the bias -/
noncomputable def unbias (u y : ℝ) : ℝ := y ^ (Huband.expo (0.98 / 49.98) 0.02 50 u)⁻¹

theorem unbias_range {u y : ℝ} (hu : In01 u) (hy : In01 y) : In01 (unbias u y) := by
  have he := (expo_range hu).1
  exact ⟨Real.rpow_nonneg hy.1 _, Real.rpow_le_one hy.1 hy.2 (inv_nonneg.mpr (by linarith))⟩

theorem bias_unbias {u y : ℝ} (hu : In01 u) (hy : In01 y) : Huband.bias u (unbias u y) = y := by
  have he := (expo_range hu).1
  unfold unbias Huband.bias Huband.bParam
  rw [← Real.rpow_mul hy.1, inv_mul_cancel₀ (by linarith), Real.rpow_one]

theorem sDecept_eq {y : ℝ} (hy : In01 y) : sDecept y 0.35 0.001 0.05 = Huband.sDecept 0.35 0.001 0.05 y := by
  obtain ⟨h0, h1⟩ := hy
  unfold sDecept Huband.sDecept
  by_cases h : y < 0.35 - 0.001
  · rw [if_pos h, flr_neg (by linarith) (by linarith), flr_zero (by linarith) (by linarith), abs_of_nonpos (by linarith : y - 0.35 ≤ 0)]
    norm_num; ring
  · rw [if_neg h]
    push Not at h
    rw [flr_zero (a := y - 0.35 + 0.001) (by linarith) (by linarith)]
    by_cases h' : y ≤ 0.35 + 0.001
    · rw [if_pos h', flr_zero (by linarith) (by linarith)]
      norm_num; ring
    · rw [if_neg h']
      push Not at h'
      rw [flr_neg (by linarith) (by linarith), abs_of_nonneg (by linarith : 0 ≤ y - 0.35)]
      norm_num; ring

theorem hDecept_range {y : ℝ} (hy : In01 y) : In01 (Huband.sDecept 0.35 0.001 0.05 y) := by
  obtain ⟨h0, h1⟩ := hy
  unfold Huband.sDecept
  split_ifs with h h'
  · constructor <;> norm_num <;> linarith
  · push Not at h
    have : |y - 0.35| ≤ 0.001 := abs_le.mpr ⟨by linarith, by linarith⟩
    exact ⟨div_nonneg (abs_nonneg _) (by norm_num), by rw [div_le_one (by norm_num)]; exact this⟩
  · push Not at h'
    constructor <;> norm_num <;> linarith

theorem hDecept_zero {y : ℝ} (hy : In01 y) : Huband.sDecept 0.35 0.001 0.05 y = 0 ↔ y = 0.35 := by
  obtain ⟨h0, h1⟩ := hy
  unfold Huband.sDecept
  split_ifs with h h'
  · constructor
    · intro e; exfalso; norm_num at e h; linarith
    · intro e; linarith
  · rw [div_eq_zero_iff]
    constructor
    · rintro (e | e)
      · have := abs_eq_zero.mp e; linarith
      · norm_num at e
    · intro e; left; rw [e]; norm_num
  · push Not at h'
    constructor
    · intro e; exfalso; norm_num at e h'; linarith
    · intro e; linarith

theorem away_range {y : ℝ} (hy : In01 y) : 0 ≤ Huband.away 0.35 y ∧ Huband.away 0.35 y ≤ 1 / 2 := by
  obtain ⟨h0, h1⟩ := hy
  unfold Huband.away
  split_ifs with h
  · constructor
    · exact div_nonneg (by linarith) (by norm_num)
    · rw [div_le_iff₀ (by norm_num)]; linarith
  · push Not at h
    constructor
    · exact div_nonneg (by linarith) (by norm_num)
    · rw [div_le_iff₀ (by norm_num)]; linarith

theorem away_zero {y : ℝ} : Huband.away 0.35 y = 0 ↔ y = 0.35 := by
  unfold Huband.away
  split_ifs with h <;> rw [div_eq_zero_iff] <;> constructor
  · rintro (e | e)
    · linarith
    · norm_num at e
  · intro e; left; linarith
  · rintro (e | e)
    · linarith
    · norm_num at e
  · intro e; left; linarith

theorem cos_61 (s : ℝ) : Real.cos ((4 * 30 + 2) * Real.pi * (1 / 2 - s)) = -Real.cos (122 * Real.pi * s) := by
  have : (4 * 30 + 2) * Real.pi * (1 / 2 - s) = Real.pi - 122 * Real.pi * s + (30 : ℕ) * (2 * Real.pi) := by push_cast; ring
  rw [this, Real.cos_add_nat_mul_two_pi, Real.cos_pi_sub]

theorem sMulti_eq {y b : ℝ} (hy : In01 y) : sMulti y 30 b 0.35 = Huband.sMulti 30 b 0.35 y := by
  obtain ⟨h0, h1⟩ := hy
  have h05 : (0.5 : ℝ) = 1 / 2 := by norm_num
  unfold sMulti Huband.sMulti
  rw [h05]
  by_cases h : y ≤ 0.35
  · have e : |y - 0.35| / (2 * (flr (0.35 - y) + 0.35)) = Huband.away 0.35 y := by
      rw [Huband.away, if_pos h, flr_zero (by linarith) (by linarith), abs_of_nonpos (by linarith)]; ring_nf
    rw [e]
  · have e : |y - 0.35| / (2 * (flr (0.35 - y) + 0.35)) = -Huband.away 0.35 y := by
      rw [Huband.away, if_neg h]
      push Not at h
      rw [flr_neg (by linarith) (by linarith), abs_of_nonneg (by linarith)]
      norm_num; ring
    rw [e, cos_61, cos_61, neg_sq, mul_neg, Real.cos_neg]

theorem hMulti_range {y b : ℝ} (hb : 0 ≤ b) (hy : In01 y) : In01 (Huband.sMulti 30 b 0.35 y) := by
  obtain ⟨h0, h1⟩ := away_range hy
  unfold Huband.sMulti
  have c1 := Real.neg_one_le_cos ((4 * 30 + 2) * Real.pi * (1 / 2 - Huband.away 0.35 y))
  have c2 := Real.cos_le_one ((4 * 30 + 2) * Real.pi * (1 / 2 - Huband.away 0.35 y))
  have s0 : 0 ≤ b * Huband.away 0.35 y ^ 2 := mul_nonneg hb (sq_nonneg _)
  have s1 : b * Huband.away 0.35 y ^ 2 ≤ b * (1 / 4) := mul_le_mul_of_nonneg_left (by nlinarith) hb
  constructor
  · exact div_nonneg (by nlinarith) (by linarith)
  · rw [div_le_one (by linarith)]; nlinarith

theorem hMulti_zero {y b : ℝ} (hb : 0 < b) : Huband.sMulti 30 b 0.35 y = 0 ↔ y = 0.35 := by
  unfold Huband.sMulti
  have c1 := Real.neg_one_le_cos ((4 * 30 + 2) * Real.pi * (1 / 2 - Huband.away 0.35 y))
  have s0 : 0 ≤ b * Huband.away 0.35 y ^ 2 := mul_nonneg hb.le (sq_nonneg _)
  rw [div_eq_zero_iff, ← away_zero]
  constructor
  · rintro (e | e)
    · have : b * Huband.away 0.35 y ^ 2 = 0 := by nlinarith
      rcases mul_eq_zero.mp this with e | e
      · exact absurd e hb.ne'
      · exact pow_eq_zero_iff (two_ne_zero) |>.mp e
    · linarith
  · intro e
    left
    rw [e, cos_61]; simp

theorem hMixed_range {x : ℝ} (hx : In01 x) : In01 (Huband.mixed x) := by
  obtain ⟨h0, h1⟩ := hx
  have hpi := Real.pi_pos
  have e : Huband.mixed x = 1 - x + Real.sin (10 * Real.pi * x) / (10 * Real.pi) := by
    unfold Huband.mixed; rw [Real.cos_add_pi_div_two]; ring
  rw [e]
  constructor
  · have h2 : Real.sin (10 * Real.pi * x) = -Real.sin (10 * Real.pi * (1 - x)) := by
      have : 10 * Real.pi * x = -(10 * Real.pi * (1 - x)) + (5 : ℕ) * (2 * Real.pi) := by push_cast; ring
      rw [this, Real.sin_add_nat_mul_two_pi, Real.sin_neg]
    have h3 : Real.sin (10 * Real.pi * (1 - x)) ≤ 10 * Real.pi * (1 - x) := Real.sin_le (by nlinarith)
    have h4 : Real.sin (10 * Real.pi * (1 - x)) / (10 * Real.pi) ≤ 1 - x := by
      rw [div_le_iff₀ (by linarith)]; linarith
    rw [h2, neg_div]; linarith
  · have h3 : Real.sin (10 * Real.pi * x) ≤ 10 * Real.pi * x := Real.sin_le (by nlinarith)
    have h4 : Real.sin (10 * Real.pi * x) / (10 * Real.pi) ≤ x := by
      rw [div_le_iff₀ (by linarith)]; linarith
    linarith

theorem hDisc_range {x : ℝ} (hx : In01 x) : In01 (Huband.disconnected x) := by
  obtain ⟨h0, h1⟩ := hx
  unfold Huband.disconnected
  have c1 := Real.cos_sq_le_one (5 * x * Real.pi)
  have c0 := sq_nonneg (Real.cos (5 * x * Real.pi))
  constructor <;> nlinarith

theorem mixed_eq (x : ℝ) : mixed x 1 5 = Huband.mixed x := by
  unfold mixed Huband.mixed
  rw [Real.rpow_one]
  norm_num

theorem disconnected_eq (x : ℝ) : disconnected x 1 1 5 = Huband.disconnected x := by
  unfold disconnected Huband.disconnected
  rw [Real.rpow_one]

end Verif.Wfg
