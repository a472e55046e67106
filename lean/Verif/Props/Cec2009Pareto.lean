import Verif.Props.Cec2009Front

/-!
# cec2009: the Pareto fronts of UF1-UF10
-/

set_option autoImplicit false

namespace Verif.Props

open Verif Verif.Cec09 Verif.Analytic Verif.Spec

/-- the first component of a vector within the bounds -/
theorem cec9In {i dim : Nat} (hi : 1 ≤ i) (hi' : i ≤ 10) (hd : 2 ≤ dim) {x : List ℝ} (hx : CecWithin (Cec09.bounds ⟨i, false, dim⟩) x) :
    x.length = dim ∧ 0 ≤ oneBased x 1 ∧ oneBased x 1 ≤ 1 ∧ (8 ≤ i → 0 ≤ oneBased x 2 ∧ oneBased x 2 ≤ 1) := by
  have hf : cecFree i ≤ dim := by rw [cecFree]; split <;> omega
  obtain ⟨h1, h2, -⟩ := (C144_boundsUF hi hi' hf x).mp hx
  have h0 := h2 1 (le_refl _) (by rw [cecFree]; split <;> omega)
  exact ⟨h1, h0.1, h0.2, fun h8 => h2 2 (by omega) (by rw [cecFree, if_neg (by omega)])⟩

/-- the curve the other components of an optimal vector lie on -/
noncomputable def cecCurve (i dim : Nat) (s : ℝ) (j : Nat) : ℝ :=
  if j = 1 then s
  else if i = 2 then (3 / 10 * s ^ 2 * Real.cos (24 * Real.pi * s + 4 * j * Real.pi / dim) + 6 / 10 * s)
    * (if j % 2 = 1 then Real.cos (6 * Real.pi * s + j * Real.pi / dim) else Real.sin (6 * Real.pi * s + j * Real.pi / dim))
  else if i = 3 then s ^ ((1 / 2 : ℝ) * (1 + 3 * ((j : ℝ) - 2) / ((dim : ℝ) - 2)))
  else Real.sin (6 * Real.pi * s + j * Real.pi / dim)

theorem cec9Curve_mem {i dim : Nat} (hi : 1 ≤ i) (hi' : i ≤ 7) (hd : 3 ≤ dim) {s : ℝ} (h0 : 0 ≤ s) (h1 : s ≤ 1) :
    CecWithin (Cec09.bounds ⟨i, false, dim⟩) (cecPoint dim (cecCurve i dim s)) := by
  have hf : cecFree i = 1 := by rw [cecFree, if_pos hi']
  rw [C144_boundsUF hi (by omega) (by omega)]
  rw [hf]
  refine ⟨cec9Point_length _ _, fun j a b => ?_, fun j a b => ?_⟩
  · rw [cec9Point _ a (by omega), cecCurve, if_pos (by omega)]; exact ⟨h0, h1⟩
  · have hj : ¬j = 1 := by omega
    rw [cec9Point _ (by omega) b]
    by_cases h2 : i = 2
    · subst h2
      have ec : cecCurve 2 dim s j = (3 / 10 * s ^ 2 * Real.cos (24 * Real.pi * s + 4 * j * Real.pi / dim) + 6 / 10 * s)
          * (if j % 2 = 1 then Real.cos (6 * Real.pi * s + j * Real.pi / dim) else Real.sin (6 * Real.pi * s + j * Real.pi / dim)) := by
        rw [cecCurve, if_neg hj, if_pos rfl]
      have e1 : |3 / 10 * s ^ 2 * Real.cos (24 * Real.pi * s + 4 * j * Real.pi / dim) + 6 / 10 * s| ≤ 1 := by
        have c := abs_le.mp (Real.abs_cos_le_one (24 * Real.pi * s + 4 * j * Real.pi / dim))
        have s2 : 0 ≤ s ^ 2 := sq_nonneg s
        have s3 : s ^ 2 ≤ 1 := by nlinarith
        rw [abs_le]; constructor <;> nlinarith
      have e2 : |if j % 2 = 1 then Real.cos (6 * Real.pi * s + j * Real.pi / dim) else Real.sin (6 * Real.pi * s + j * Real.pi / dim)| ≤ 1 := by
        split
        · exact Real.abs_cos_le_one _
        · exact Real.abs_sin_le_one _
      have e3 : |cecCurve 2 dim s j| ≤ 1 := by
        rw [ec, abs_mul]
        calc _ ≤ (1 : ℝ) * 1 := mul_le_mul e1 e2 (abs_nonneg _) zero_le_one
          _ = 1 := by norm_num
      rw [if_neg (by omega), if_neg (by omega)]; exact e3
    · by_cases h3 : i = 3
      · have ec : cecCurve i dim s j = s ^ ((1 / 2 : ℝ) * (1 + 3 * ((j : ℝ) - 2) / ((dim : ℝ) - 2))) := by
          rw [cecCurve, if_neg hj, if_neg h2, if_pos h3]
        rw [if_pos h3, ec]
        refine ⟨Real.rpow_nonneg h0 _, Real.rpow_le_one h0 h1 ?_⟩
        have : (2 : ℝ) < dim := by exact_mod_cast hd
        have : (2 : ℝ) ≤ j := by exact_mod_cast a
        exact mul_nonneg (by norm_num) (add_nonneg zero_le_one (div_nonneg (by linarith) (by linarith)))
      · have ec : cecCurve i dim s j = Real.sin (6 * Real.pi * s + j * Real.pi / dim) := by
          rw [cecCurve, if_neg hj, if_neg h2, if_neg h3]
        rw [if_neg h3, ec]
        refine (Real.abs_sin_le_one _).trans ?_
        split <;> norm_num

theorem cec9Curve_one {i dim : Nat} (hd : 1 ≤ dim) (s : ℝ) : oneBased (cecPoint dim (cecCurve i dim s)) 1 = s := by
  rw [cec9Point _ (le_refl _) hd, cecCurve, if_pos rfl]

theorem cec9Curve_Y {i dim : Nat} (h2 : i ≠ 2) (h3 : i ≠ 3) (s : ℝ) {j : Nat} (hj : 2 ≤ j) (hj' : j ≤ dim) :
    cecY dim (oneBased (cecPoint dim (cecCurve i dim s))) j = 0 := by
  rw [cecY, cec9Curve_one (by omega), cec9Point _ (by omega) hj', cecCurve, if_neg (by omega), if_neg h2, if_neg h3, sub_self]

theorem cec9Curve_Q {dim : Nat} (s : ℝ) {j : Nat} (hj : 2 ≤ j) (hj' : j ≤ dim) :
    cecQ dim (oneBased (cecPoint dim (cecCurve 2 dim s))) j = 0 := by
  rw [cecQ, cec9Curve_one (by omega), cec9Point _ (by omega) hj', cecCurve, if_neg (by omega), if_pos rfl, sub_self]

theorem cec9Curve_P {dim : Nat} (s : ℝ) {j : Nat} (hj : 2 ≤ j) (hj' : j ≤ dim) :
    cecP dim (oneBased (cecPoint dim (cecCurve 3 dim s))) j = 0 := by
  rw [cecP, cec9Curve_one (by omega), cec9Point _ (by omega) hj', cecCurve, if_neg (by omega), if_neg (by omega), if_pos rfl, sub_self]

/-- C146: UF1, UF2, UF3: the front is f₂ = 1 - √f₁ for f₁ from 0 to 1: no vector of the box is below it and every point of it is attained -/
theorem C146_uf123 {i dim : Nat} (hi : 1 ≤ i) (hi' : i ≤ 3) (hd : 3 ≤ dim) :
    (∀ x, CecWithin (Cec09.bounds ⟨i, false, dim⟩) x →
      ∃ f₁ f₂, Cec09.fitness ⟨i, false, dim⟩ x = .ok [some f₁, some f₂] ∧ 0 ≤ f₁ ∧ 0 ≤ f₂ ∧ 1 - Real.sqrt f₁ ≤ f₂) ∧
    ∀ s, 0 ≤ s → s ≤ 1 → ∃ x, CecWithin (Cec09.bounds ⟨i, false, dim⟩) x ∧
      Cec09.fitness ⟨i, false, dim⟩ x = .ok [some s, some (1 - Real.sqrt s)] := by
  have hid : i = 1 ∨ i = 2 ∨ i = 3 := by omega
  have key : ∀ {a d₁ d₂ : ℝ}, 0 ≤ a → a ≤ 1 → 0 ≤ d₁ → 0 ≤ d₂ → 0 ≤ a + d₁ ∧ 0 ≤ 1 - Real.sqrt a + d₂ ∧ 1 - Real.sqrt (a + d₁) ≤ 1 - Real.sqrt a + d₂ := by
    intro a d₁ d₂ h0 h1 h2 h3
    have e1 : Real.sqrt a ≤ 1 := Real.sqrt_le_one.mpr h1
    have e2 : Real.sqrt a ≤ Real.sqrt (a + d₁) := Real.sqrt_le_sqrt (by linarith)
    exact ⟨by linarith, by linarith, by linarith⟩
  constructor
  · intro x hx
    obtain ⟨hl, x0, x1, -⟩ := cec9In hi (by omega) (by omega) hx
    rw [C145_uf hi (by omega) (by rw [if_pos (by omega)]; exact hd) hx]
    rcases hid with rfl | rfl | rfl
    · exact ⟨_, _, rfl, key x0 x1 (cec9Mean_nonneg _ (fun j _ => sq_nonneg _)) (cec9Mean_nonneg _ (fun j _ => sq_nonneg _))⟩
    · exact ⟨_, _, rfl, key x0 x1 (cec9Mean_nonneg _ (fun j _ => sq_nonneg _)) (cec9Mean_nonneg _ (fun j _ => sq_nonneg _))⟩
    · exact ⟨_, _, rfl, key x0 x1 (cec9Multi_nonneg _ _) (cec9Multi_nonneg _ _)⟩
  · intro s h0 h1
    have hm := cec9Curve_mem hi (by omega) hd h0 h1
    refine ⟨_, hm, ?_⟩
    rw [C145_uf hi (by omega) (by rw [if_pos (by omega)]; exact hd) hm]
    rcases hid with rfl | rfl | rfl
    · simp only [ufObj, List.map_cons, List.map_nil]
      rw [cec9Curve_one (by omega), cec9Mean_zero _ (fun j hj => by rw [cec9Curve_Y (by omega) (by omega) s (cec9_mem_odd hj).1 (cec9_mem_odd hj).2]; norm_num),
        cec9Mean_zero _ (fun j hj => by rw [cec9Curve_Y (by omega) (by omega) s (cec9_mem_even hj).1 (cec9_mem_even hj).2]; norm_num), add_zero, add_zero]
    · simp only [ufObj, List.map_cons, List.map_nil]
      rw [cec9Curve_one (by omega), cec9Mean_zero _ (fun j hj => by rw [cec9Curve_Q s (cec9_mem_odd hj).1 (cec9_mem_odd hj).2]; norm_num),
        cec9Mean_zero _ (fun j hj => by rw [cec9Curve_Q s (cec9_mem_even hj).1 (cec9_mem_even hj).2]; norm_num), add_zero, add_zero]
    · simp only [ufObj, List.map_cons, List.map_nil]
      rw [cec9Curve_one (by omega), cec9Multi_zero _ (fun j hj => cec9Curve_P s (cec9_mem_odd hj).1 (cec9_mem_odd hj).2),
        cec9Multi_zero _ (fun j hj => cec9Curve_P s (cec9_mem_even hj).1 (cec9_mem_even hj).2), add_zero, add_zero]

/-- C146: UF4: the front is f₂ = 1 - f₁² -/
theorem C146_uf4 {dim : Nat} (hd : 3 ≤ dim) :
    (∀ x, CecWithin (Cec09.bounds ⟨4, false, dim⟩) x →
      ∃ f₁ f₂, Cec09.fitness ⟨4, false, dim⟩ x = .ok [some f₁, some f₂] ∧ 0 ≤ f₁ ∧ 0 ≤ f₂ ∧ 1 - f₁ ^ 2 ≤ f₂) ∧
    ∀ s, 0 ≤ s → s ≤ 1 → ∃ x, CecWithin (Cec09.bounds ⟨4, false, dim⟩) x ∧ Cec09.fitness ⟨4, false, dim⟩ x = .ok [some s, some (1 - s ^ 2)] := by
  constructor
  · intro x hx
    obtain ⟨hl, x0, x1, -⟩ := cec9In (by omega) (by omega) (by omega) hx
    rw [C145_uf (by omega) (by omega) (by rw [if_pos (by omega)]; exact hd) hx]
    have n : ∀ y : ℝ, 0 ≤ |y| / (1 + Real.exp (2 * |y|)) := fun y => by positivity
    have e1 := cec9Mean_nonneg (cecOdd dim) (fun j _ => n (cecY dim (oneBased x) j))
    have e2 := cec9Mean_nonneg (cecEven dim) (fun j _ => n (cecY dim (oneBased x) j))
    refine ⟨_, _, rfl, ?_, ?_, ?_⟩
    · linarith
    · nlinarith
    · nlinarith
  · intro s h0 h1
    have hm := cec9Curve_mem (i := 4) (by omega) (by omega) hd h0 h1
    refine ⟨_, hm, ?_⟩
    rw [C145_uf (by omega) (by omega) (by rw [if_pos (by omega)]; exact hd) hm]
    simp only [ufObj, List.map_cons, List.map_nil]
    rw [cec9Curve_one (by omega), cec9Mean_zero _ (fun j hj => by rw [cec9Curve_Y (by omega) (by omega) s (cec9_mem_odd hj).1 (cec9_mem_odd hj).2]; norm_num),
      cec9Mean_zero _ (fun j hj => by rw [cec9Curve_Y (by omega) (by omega) s (cec9_mem_even hj).1 (cec9_mem_even hj).2]; norm_num), add_zero, add_zero]

/-- C146: UF7: the front is f₂ = 1 - f₁ -/
theorem C146_uf7 {dim : Nat} (hd : 3 ≤ dim) :
    (∀ x, CecWithin (Cec09.bounds ⟨7, false, dim⟩) x →
      ∃ f₁ f₂, Cec09.fitness ⟨7, false, dim⟩ x = .ok [some f₁, some f₂] ∧ 0 ≤ f₁ ∧ 0 ≤ f₂ ∧ 1 - f₁ ≤ f₂) ∧
    ∀ s, 0 ≤ s → s ≤ 1 → ∃ x, CecWithin (Cec09.bounds ⟨7, false, dim⟩) x ∧ Cec09.fitness ⟨7, false, dim⟩ x = .ok [some s, some (1 - s)] := by
  constructor
  · intro x hx
    obtain ⟨hl, x0, x1, -⟩ := cec9In (by omega) (by omega) (by omega) hx
    rw [C145_uf (by omega) (by omega) (by rw [if_pos (by omega)]; exact hd) hx]
    have e1 := cec9Mean_nonneg (cecOdd dim) (fun j _ => sq_nonneg (cecY dim (oneBased x) j))
    have e2 := cec9Mean_nonneg (cecEven dim) (fun j _ => sq_nonneg (cecY dim (oneBased x) j))
    have p0 : 0 ≤ oneBased x 1 ^ (1 / 5 : ℝ) := Real.rpow_nonneg x0 _
    have p1 : oneBased x 1 ^ (1 / 5 : ℝ) ≤ 1 := Real.rpow_le_one x0 x1 (by norm_num)
    refine ⟨_, _, rfl, ?_, ?_, ?_⟩ <;> linarith
  · intro s h0 h1
    have hm := cec9Curve_mem (i := 7) (by omega) (by omega) hd (pow_nonneg h0 5) (pow_le_one₀ h0 h1)
    refine ⟨_, hm, ?_⟩
    rw [C145_uf (by omega) (by omega) (by rw [if_pos (by omega)]; exact hd) hm]
    simp only [ufObj, List.map_cons, List.map_nil]
    have hs : (s ^ 5 : ℝ) ^ (1 / 5 : ℝ) = s := by
      rw [← Real.rpow_natCast, ← Real.rpow_mul h0]; norm_num
    rw [cec9Curve_one (by omega), cec9Mean_zero _ (fun j hj => by rw [cec9Curve_Y (by omega) (by omega) _ (cec9_mem_odd hj).1 (cec9_mem_odd hj).2]; norm_num),
      cec9Mean_zero _ (fun j hj => by rw [cec9Curve_Y (by omega) (by omega) _ (cec9_mem_even hj).1 (cec9_mem_even hj).2]; norm_num), add_zero, add_zero, hs]

theorem cec9Near {a : ℝ} (h0 : 0 ≤ a) (h1 : a ≤ 1) : ∃ k : Nat, k ≤ 20 ∧ |a - k / 20| ≤ (1 / 20 + 1 / 10) * |Real.sin (20 * Real.pi * a)| := by
  have hr := abs_sub_round (20 * a)
  have hr' := abs_le.mp hr
  set k := round (20 * a) with hk
  have k0 : 0 ≤ k := by
    have : (-1 : ℝ) < k := by linarith
    have : (-1 : ℤ) < k := by exact_mod_cast this
    omega
  have k1 : k ≤ 20 := by
    have : (k : ℝ) < 21 := by linarith
    have : k < 21 := by exact_mod_cast this
    omega
  obtain ⟨n, hn⟩ := Int.eq_ofNat_of_zero_le k0
  refine ⟨n, by omega, ?_⟩
  have hkn : (k : ℝ) = n := by rw [hn]; norm_cast
  rw [hkn] at hr
  have e1 : 20 * Real.pi * a = (20 * a - n) * Real.pi + n * Real.pi := by ring
  have e2 : |Real.sin (20 * Real.pi * a)| = |Real.sin ((20 * a - n) * Real.pi)| := by
    rw [e1, Real.sin_add_nat_mul_pi, abs_mul, abs_pow, abs_neg, abs_one, one_pow, one_mul]
  have hpi := Real.pi_pos
  have e3 := Real.mul_abs_le_abs_sin (x := (20 * a - n) * Real.pi) (by
    rw [abs_mul, abs_of_pos hpi]; nlinarith)
  rw [abs_mul, abs_of_pos hpi] at e3
  have e4 : 2 / Real.pi * (|20 * a - n| * Real.pi) = 2 * |20 * a - n| := by field_simp
  rw [e4] at e3
  rw [e2]
  have e5 : |a - n / 20| = |20 * a - n| / 20 := by
    rw [show a - (n : ℝ) / 20 = (20 * a - n) / 20 by ring, abs_div]; norm_num
  rw [e5]
  linarith [abs_nonneg (20 * a - (n : ℝ))]

/-- C146: UF5: the front consists of the 21 points (k/20, 1 - k/20): each is attained and every vector of the box is at best one of them -/
theorem C146_uf5 {dim : Nat} (hd : 3 ≤ dim) :
    (∀ x, CecWithin (Cec09.bounds ⟨5, false, dim⟩) x →
      ∃ f₁ f₂, Cec09.fitness ⟨5, false, dim⟩ x = .ok [some f₁, some f₂] ∧ ∃ k : Nat, k ≤ 20 ∧ k / 20 ≤ f₁ ∧ 1 - k / 20 ≤ f₂) ∧
    ∀ k : Nat, k ≤ 20 → ∃ x, CecWithin (Cec09.bounds ⟨5, false, dim⟩) x ∧
      Cec09.fitness ⟨5, false, dim⟩ x = .ok [some (k / 20), some (1 - k / 20)] := by
  constructor
  · intro x hx
    obtain ⟨hl, x0, x1, -⟩ := cec9In (by omega) (by omega) (by omega) hx
    rw [C145_uf (by omega) (by omega) (by rw [if_pos (by omega)]; exact hd) hx]
    have e1 := cec9Mean_nonneg (cecOdd dim) (fun j _ => cec9H_nonneg (cecY dim (oneBased x) j))
    have e2 := cec9Mean_nonneg (cecEven dim) (fun j _ => cec9H_nonneg (cecY dim (oneBased x) j))
    obtain ⟨k, hk, hn⟩ := cec9Near x0 x1
    have hn := abs_le.mp hn
    refine ⟨_, _, rfl, k, hk, ?_, ?_⟩ <;> linarith
  · intro k hk
    have hk' : (k : ℝ) ≤ 20 := by exact_mod_cast hk
    have hk0 : (0 : ℝ) ≤ k := Nat.cast_nonneg _
    have hm := cec9Curve_mem (i := 5) (s := k / 20) (by omega) (by omega) hd (by positivity) (by linarith)
    refine ⟨_, hm, ?_⟩
    rw [C145_uf (by omega) (by omega) (by rw [if_pos (by omega)]; exact hd) hm]
    simp only [ufObj, List.map_cons, List.map_nil]
    have hs : Real.sin (20 * Real.pi * (k / 20)) = 0 := by
      rw [show 20 * Real.pi * ((k : ℝ) / 20) = k * Real.pi by ring]; exact Real.sin_nat_mul_pi k
    rw [cec9Curve_one (by omega), hs,
      cec9Mean_zero _ (fun j hj => by rw [cec9Curve_Y (by omega) (by omega) _ (cec9_mem_odd hj).1 (cec9_mem_odd hj).2]; exact cec9H_zero),
      cec9Mean_zero _ (fun j hj => by rw [cec9Curve_Y (by omega) (by omega) _ (cec9_mem_even hj).1 (cec9_mem_even hj).2]; exact cec9H_zero)]
    simp

/-- the front of UF6 -/
def cecGap (b : ℝ) : Prop := b = 0 ∨ (1 / 4 ≤ b ∧ b ≤ 1 / 2) ∨ (3 / 4 ≤ b ∧ b ≤ 1)

theorem cec9Gap_sin {b : ℝ} (h : cecGap b) : Real.sin (4 * Real.pi * b) ≤ 0 := by
  have hpi := Real.pi_pos
  rcases h with rfl | ⟨h1, h2⟩ | ⟨h1, h2⟩
  · simp
  · have := Real.sin_nonpos_of_nonpos_of_neg_pi_le (x := 4 * Real.pi * b - 2 * Real.pi) (by nlinarith) (by nlinarith)
    rwa [Real.sin_sub_two_pi] at this
  · have := Real.sin_nonpos_of_nonpos_of_neg_pi_le (x := 4 * Real.pi * b - 2 * Real.pi - 2 * Real.pi) (by nlinarith) (by nlinarith)
    rwa [Real.sin_sub_two_pi, Real.sin_sub_two_pi] at this

theorem cec9Bump {t : ℝ} (h0 : 0 ≤ t) (h1 : t ≤ 1 / 4) : (t ≤ 1 / 2 * Real.sin (4 * Real.pi * t)) ∨ (1 / 4 - t ≤ 1 / 2 * Real.sin (4 * Real.pi * t)) := by
  have hpi := Real.pi_pos
  by_cases h : t ≤ 1 / 8
  · left
    have := Real.mul_le_sin (x := 4 * Real.pi * t) (by positivity) (by nlinarith)
    rw [show 2 / Real.pi * (4 * Real.pi * t) = 8 * t by field_simp; ring] at this
    linarith
  · right
    have := Real.mul_le_sin (x := Real.pi - 4 * Real.pi * t) (by nlinarith) (by nlinarith)
    rw [show 2 / Real.pi * (Real.pi - 4 * Real.pi * t) = 2 - 8 * t by field_simp; ring, Real.sin_pi_sub] at this
    linarith

theorem cec9Gap_near {a : ℝ} (h0 : 0 ≤ a) (h1 : a ≤ 1) : ∃ b, cecGap b ∧ |a - b| ≤ max 0 (1 / 2 * Real.sin (4 * Real.pi * a)) := by
  have hm := le_max_right 0 (1 / 2 * Real.sin (4 * Real.pi * a))
  by_cases ha : a ≤ 1 / 4
  · rcases cec9Bump h0 ha with h | h
    · exact ⟨0, .inl rfl, by rw [sub_zero, abs_of_nonneg h0]; linarith⟩
    · exact ⟨1 / 4, .inr (.inl (by norm_num)), by rw [abs_of_nonpos (by linarith)]; linarith⟩
  · by_cases hb : a ≤ 1 / 2
    · exact ⟨a, .inr (.inl ⟨by linarith, hb⟩), by rw [sub_self, abs_zero]; exact le_max_left _ _⟩
    · by_cases hc : a ≤ 3 / 4
      · have es : Real.sin (4 * Real.pi * (a - 1 / 2)) = Real.sin (4 * Real.pi * a) := by
          rw [show 4 * Real.pi * (a - 1 / 2) = 4 * Real.pi * a - 2 * Real.pi by ring, Real.sin_sub_two_pi]
        have := cec9Bump (t := a - 1 / 2) (by linarith) (by linarith)
        rw [es] at this
        rcases this with h | h
        · exact ⟨1 / 2, .inr (.inl (by norm_num)), by rw [abs_of_nonneg (by linarith)]; linarith⟩
        · exact ⟨3 / 4, .inr (.inr (by norm_num)), by rw [abs_of_nonpos (by linarith)]; linarith⟩
      · exact ⟨a, .inr (.inr ⟨by linarith, h1⟩), by rw [sub_self, abs_zero]; exact le_max_left _ _⟩

/-- C146: UF6: the front is f₂ = 1 - f₁ for f₁ = 0, 1/4 to 1/2, and 3/4 to 1 -/
theorem C146_uf6 {dim : Nat} (hd : 3 ≤ dim) :
    (∀ x, CecWithin (Cec09.bounds ⟨6, false, dim⟩) x →
      ∃ f₁ f₂, Cec09.fitness ⟨6, false, dim⟩ x = .ok [some f₁, some f₂] ∧
        ∃ b : ℝ, (b = 0 ∨ (1 / 4 ≤ b ∧ b ≤ 1 / 2) ∨ (3 / 4 ≤ b ∧ b ≤ 1)) ∧ b ≤ f₁ ∧ 1 - b ≤ f₂) ∧
    ∀ b : ℝ, (b = 0 ∨ (1 / 4 ≤ b ∧ b ≤ 1 / 2) ∨ (3 / 4 ≤ b ∧ b ≤ 1)) → ∃ x, CecWithin (Cec09.bounds ⟨6, false, dim⟩) x ∧
      Cec09.fitness ⟨6, false, dim⟩ x = .ok [some b, some (1 - b)] := by
  constructor
  · intro x hx
    obtain ⟨hl, x0, x1, -⟩ := cec9In (by omega) (by omega) (by omega) hx
    rw [C145_uf (by omega) (by omega) (by rw [if_pos (by omega)]; exact hd) hx]
    have e1 := cec9Multi_nonneg (cecOdd dim) (cecY dim (oneBased x))
    have e2 := cec9Multi_nonneg (cecEven dim) (cecY dim (oneBased x))
    obtain ⟨b, hb, hn⟩ := cec9Gap_near x0 x1
    have hm : max 0 (1 / 2 * Real.sin (4 * Real.pi * oneBased x 1)) ≤ max 0 (2 * (1 / 4 + 1 / 10) * Real.sin (4 * Real.pi * oneBased x 1)) := by
      rcases le_total 0 (Real.sin (4 * Real.pi * oneBased x 1)) with h | h
      · exact max_le_max (le_refl _) (by linarith)
      · rw [max_eq_left (by linarith)]; exact le_max_left _ _
    have hn := abs_le.mp (hn.trans hm)
    refine ⟨_, _, rfl, b, hb, ?_, ?_⟩ <;> linarith
  · intro b hb
    have hs := cec9Gap_sin hb
    have hb0 : 0 ≤ b ∧ b ≤ 1 := by
      rcases hb with rfl | ⟨h1, h2⟩ | ⟨h1, h2⟩
      · norm_num
      · constructor <;> linarith
      · constructor <;> linarith
    have hm := cec9Curve_mem (i := 6) (s := b) (by omega) (by omega) hd hb0.1 hb0.2
    refine ⟨_, hm, ?_⟩
    rw [C145_uf (by omega) (by omega) (by rw [if_pos (by omega)]; exact hd) hm]
    simp only [ufObj, List.map_cons, List.map_nil]
    rw [cec9Curve_one (by omega), max_eq_left (by nlinarith),
      cec9Multi_zero _ (fun j hj => cec9Curve_Y (by omega) (by omega) _ (cec9_mem_odd hj).1 (cec9_mem_odd hj).2),
      cec9Multi_zero _ (fun j hj => cec9Curve_Y (by omega) (by omega) _ (cec9_mem_even hj).1 (cec9_mem_even hj).2)]
    simp

/-- the surface the other components of an optimal vector of UF8, UF9, UF10 lie on -/
noncomputable def cecSurf (dim : Nat) (s t : ℝ) (j : Nat) : ℝ :=
  if j = 1 then s else if j = 2 then t else 2 * t * Real.sin (2 * Real.pi * s + j * Real.pi / dim)

theorem cec9Surf_mem {i dim : Nat} (hi : 8 ≤ i) (hi' : i ≤ 10) (hd : 5 ≤ dim) {s t : ℝ} (h0 : 0 ≤ s) (h1 : s ≤ 1) (k0 : 0 ≤ t) (k1 : t ≤ 1) :
    CecWithin (Cec09.bounds ⟨i, false, dim⟩) (cecPoint dim (cecSurf dim s t)) := by
  have hf : cecFree i = 2 := by rw [cecFree, if_neg (by omega)]
  rw [C144_boundsUF (by omega) (by omega) (by omega), hf]
  refine ⟨cec9Point_length _ _, fun j a b => ?_, fun j a b => ?_⟩
  · rw [cec9Point _ a (by omega), cecSurf]
    by_cases hj : j = 1
    · rw [if_pos hj]; exact ⟨h0, h1⟩
    · rw [if_neg hj, if_pos (by omega)]; exact ⟨k0, k1⟩
  · have ec : cecSurf dim s t j = 2 * t * Real.sin (2 * Real.pi * s + j * Real.pi / dim) := by
      rw [cecSurf, if_neg (by omega), if_neg (by omega)]
    rw [cec9Point _ (by omega) b, if_neg (by omega), if_pos (by omega), ec, abs_mul, abs_of_nonneg (by linarith : 0 ≤ 2 * t)]
    have := Real.abs_sin_le_one (2 * Real.pi * s + j * Real.pi / dim)
    have := abs_nonneg (Real.sin (2 * Real.pi * s + j * Real.pi / dim))
    nlinarith

theorem cec9Surf_one {dim : Nat} (hd : 2 ≤ dim) (s t : ℝ) : oneBased (cecPoint dim (cecSurf dim s t)) 1 = s ∧ oneBased (cecPoint dim (cecSurf dim s t)) 2 = t := by
  constructor
  · rw [cec9Point _ (le_refl _) (by omega), cecSurf, if_pos rfl]
  · rw [cec9Point _ (by omega) hd, cecSurf, if_neg (by omega), if_pos rfl]

theorem cec9Surf_Z {dim : Nat} (s t : ℝ) {j : Nat} (hj : 3 ≤ j) (hj' : j ≤ dim) :
    cecZ dim (oneBased (cecPoint dim (cecSurf dim s t))) j = 0 := by
  obtain ⟨e1, e2⟩ := cec9Surf_one (dim := dim) (by omega) s t
  rw [cecZ, e1, e2, cec9Point _ (by omega) hj', cecSurf, if_neg (by omega), if_neg (by omega), sub_self]

/-- angles of a point of the first octant of the unit sphere -/
theorem cec9Angles {a b c : ℝ} (ha : 0 ≤ a) (hb : 0 ≤ b) (hc : 0 ≤ c) (h : a ^ 2 + b ^ 2 + c ^ 2 = 1) : ∃ s t : ℝ, 0 ≤ s ∧ s ≤ 1 ∧ 0 ≤ t ∧ t ≤ 1 ∧
    Real.cos (s * Real.pi / 2) * Real.cos (t * Real.pi / 2) = a ∧ Real.cos (s * Real.pi / 2) * Real.sin (t * Real.pi / 2) = b ∧
    Real.sin (s * Real.pi / 2) = c := by
  have hpi := Real.pi_pos
  have hc1 : c ≤ 1 := by nlinarith [sq_nonneg a, sq_nonneg b]
  have angle : ∀ {v : ℝ}, 0 ≤ v → v ≤ 1 → ∃ s : ℝ, 0 ≤ s ∧ s ≤ 1 ∧ Real.sin (s * Real.pi / 2) = v ∧ Real.cos (s * Real.pi / 2) = Real.sqrt (1 - v ^ 2) := by
    intro v v0 v1
    have e : 2 / Real.pi * Real.arcsin v * Real.pi / 2 = Real.arcsin v := by field_simp
    refine ⟨2 / Real.pi * Real.arcsin v, mul_nonneg (by positivity) (Real.arcsin_nonneg.mpr v0), ?_, ?_, ?_⟩
    · have := Real.arcsin_le_pi_div_two v
      calc _ ≤ 2 / Real.pi * (Real.pi / 2) := mul_le_mul_of_nonneg_left this (by positivity)
        _ = 1 := by field_simp
    · rw [e, Real.sin_arcsin (by linarith) v1]
    · rw [e, Real.cos_arcsin]
  obtain ⟨s, s0, s1, es, ecs⟩ := angle hc hc1
  have hab : 1 - c ^ 2 = a ^ 2 + b ^ 2 := by linarith
  rw [hab] at ecs
  set r := Real.sqrt (a ^ 2 + b ^ 2) with hr
  have hr2 : r ^ 2 = a ^ 2 + b ^ 2 := Real.sq_sqrt (by positivity)
  have hr0 : 0 ≤ r := Real.sqrt_nonneg _
  rcases eq_or_lt_of_le hr0 with hz | hp
  · have hz' : a ^ 2 + b ^ 2 = 0 := by rw [← hr2, ← hz]; norm_num
    have a0 : a = 0 := by nlinarith [sq_nonneg a, sq_nonneg b]
    have b0 : b = 0 := by nlinarith [sq_nonneg a, sq_nonneg b]
    exact ⟨s, 0, s0, s1, le_refl _, zero_le_one, by rw [ecs, ← hz, a0, zero_mul], by rw [ecs, ← hz, b0, zero_mul], es⟩
  · have hbr : b / r ≤ 1 := by rw [div_le_one hp]; nlinarith [sq_nonneg a]
    obtain ⟨t, t0, t1, et, ect⟩ := angle (div_nonneg hb hr0) hbr
    have e2 : 1 - (b / r) ^ 2 = (a / r) ^ 2 := by
      rw [div_pow, div_pow, hr2]
      have : a ^ 2 + b ^ 2 ≠ 0 := by rw [← hr2]; positivity
      field_simp; ring
    rw [e2, Real.sqrt_sq (div_nonneg ha hr0)] at ect
    refine ⟨s, t, s0, s1, t0, t1, ?_, ?_, es⟩
    · rw [ecs, ect]; field_simp
    · rw [ecs, et]; field_simp

/-- C146: UF8 and UF10: the front is the first octant of the unit sphere -/
theorem C146_uf8_10 {i dim : Nat} (hi : i = 8 ∨ i = 10) (hd : 5 ≤ dim) :
    (∀ x, CecWithin (Cec09.bounds ⟨i, false, dim⟩) x →
      ∃ f₁ f₂ f₃, Cec09.fitness ⟨i, false, dim⟩ x = .ok [some f₁, some f₂, some f₃] ∧ 0 ≤ f₁ ∧ 0 ≤ f₂ ∧ 0 ≤ f₃ ∧ 1 ≤ f₁ ^ 2 + f₂ ^ 2 + f₃ ^ 2) ∧
    ∀ a b c : ℝ, 0 ≤ a → 0 ≤ b → 0 ≤ c → a ^ 2 + b ^ 2 + c ^ 2 = 1 → ∃ x, CecWithin (Cec09.bounds ⟨i, false, dim⟩) x ∧
      Cec09.fitness ⟨i, false, dim⟩ x = .ok [some a, some b, some c] := by
  have hpi := Real.pi_pos
  have key : ∀ (X : Nat → ℝ) {d₁ d₂ d₃ : ℝ}, 0 ≤ X 1 → X 1 ≤ 1 → 0 ≤ X 2 → X 2 ≤ 1 → 0 ≤ d₁ → 0 ≤ d₂ → 0 ≤ d₃ →
      ∃ f₁ f₂ f₃, Outcome.ok ((cecSphere X d₁ d₂ d₃).map some) = .ok [some f₁, some f₂, some f₃] ∧ 0 ≤ f₁ ∧ 0 ≤ f₂ ∧ 0 ≤ f₃ ∧
        1 ≤ f₁ ^ 2 + f₂ ^ 2 + f₃ ^ 2 := by
    intro X d₁ d₂ d₃ a0 a1 b0 b1 h1 h2 h3
    have c1 : 0 ≤ Real.cos (X 1 * Real.pi / 2) := Real.cos_nonneg_of_neg_pi_div_two_le_of_le (by nlinarith) (by nlinarith)
    have c2 : 0 ≤ Real.cos (X 2 * Real.pi / 2) := Real.cos_nonneg_of_neg_pi_div_two_le_of_le (by nlinarith) (by nlinarith)
    have s1 : 0 ≤ Real.sin (X 1 * Real.pi / 2) := Real.sin_nonneg_of_nonneg_of_le_pi (by nlinarith) (by nlinarith)
    have s2 : 0 ≤ Real.sin (X 2 * Real.pi / 2) := Real.sin_nonneg_of_nonneg_of_le_pi (by nlinarith) (by nlinarith)
    have p1 := Real.sin_sq_add_cos_sq (X 1 * Real.pi / 2)
    have p2 := Real.sin_sq_add_cos_sq (X 2 * Real.pi / 2)
    have m1 := mul_nonneg c1 c2
    have m2 := mul_nonneg c1 s2
    refine ⟨_, _, _, rfl, by linarith, by linarith, by linarith, ?_⟩
    have q1 := pow_le_pow_left₀ m1 (le_add_of_nonneg_right h1) 2
    have q2 := pow_le_pow_left₀ m2 (le_add_of_nonneg_right h2) 2
    have q3 := pow_le_pow_left₀ s1 (le_add_of_nonneg_right h3) 2
    have e : (Real.cos (X 1 * Real.pi / 2) * Real.cos (X 2 * Real.pi / 2)) ^ 2 + (Real.cos (X 1 * Real.pi / 2) * Real.sin (X 2 * Real.pi / 2)) ^ 2
        + Real.sin (X 1 * Real.pi / 2) ^ 2 = 1 := by
      have : (Real.cos (X 1 * Real.pi / 2) * Real.cos (X 2 * Real.pi / 2)) ^ 2 + (Real.cos (X 1 * Real.pi / 2) * Real.sin (X 2 * Real.pi / 2)) ^ 2
        = Real.cos (X 1 * Real.pi / 2) ^ 2 * (Real.sin (X 2 * Real.pi / 2) ^ 2 + Real.cos (X 2 * Real.pi / 2) ^ 2) := by ring
      rw [this, p2, mul_one]; linarith
    linarith
  have n10 : ∀ z : ℝ, 0 ≤ 4 * z ^ 2 - Real.cos (8 * Real.pi * z) + 1 := fun z => by nlinarith [sq_nonneg z, Real.cos_le_one (8 * Real.pi * z)]
  constructor
  · intro x hx
    obtain ⟨hl, x0, x1, hx2⟩ := cec9In (by omega) (by omega) (by omega) hx
    obtain ⟨y0, y1⟩ := hx2 (by omega)
    rw [C145_uf (by omega) (by omega) (by rw [if_neg (by omega)]; exact hd) hx]
    rcases hi with rfl | rfl
    · exact key (oneBased x) x0 x1 y0 y1 (cec9Mean_nonneg _ (fun j _ => sq_nonneg _)) (cec9Mean_nonneg _ (fun j _ => sq_nonneg _))
        (cec9Mean_nonneg _ (fun j _ => sq_nonneg _))
    · exact key (oneBased x) x0 x1 y0 y1 (cec9Mean_nonneg _ (fun j _ => n10 _)) (cec9Mean_nonneg _ (fun j _ => n10 _))
        (cec9Mean_nonneg _ (fun j _ => n10 _))
  · intro a b c ha hb hc h
    obtain ⟨s, t, s0, s1, t0, t1, e1, e2, e3⟩ := cec9Angles ha hb hc h
    obtain ⟨o1, o2⟩ := cec9Surf_one (dim := dim) (by omega) s t
    have hm := cec9Surf_mem (i := i) (by omega) (by omega) hd s0 s1 t0 t1
    refine ⟨_, hm, ?_⟩
    rw [C145_uf (by omega) (by omega) (by rw [if_neg (by omega)]; exact hd) hm]
    rcases hi with rfl | rfl
    · have z : ∀ k, mean2 (cecThird k dim) (fun j => cecZ dim (oneBased (cecPoint dim (cecSurf dim s t))) j ^ 2) = 0 :=
        fun k => cec9Mean_zero _ (fun j hj => by rw [cec9Surf_Z s t (cec9_mem_third hj).1 (cec9_mem_third hj).2]; norm_num)
      simp only [ufObj, cecSphere, List.map_cons, List.map_nil]
      rw [z, z, z, o1, o2, add_zero, add_zero, add_zero, e1, e2, e3]
    · have z : ∀ k, mean2 (cecThird k dim) (fun j => 4 * cecZ dim (oneBased (cecPoint dim (cecSurf dim s t))) j ^ 2
          - Real.cos (8 * Real.pi * cecZ dim (oneBased (cecPoint dim (cecSurf dim s t))) j) + 1) = 0 :=
        fun k => cec9Mean_zero _ (fun j hj => by rw [cec9Surf_Z s t (cec9_mem_third hj).1 (cec9_mem_third hj).2]; norm_num)
      simp only [ufObj, cecSphere, List.map_cons, List.map_nil]
      rw [z, z, z, o1, o2, add_zero, add_zero, add_zero, e1, e2, e3]

/-- C146: UF9: the front consists of two parts of the plane f₁ + f₂ + f₃ = 1 -/
theorem C146_uf9 {dim : Nat} (hd : 5 ≤ dim) :
    (∀ x, CecWithin (Cec09.bounds ⟨9, false, dim⟩) x →
      ∃ f₁ f₂ f₃, Cec09.fitness ⟨9, false, dim⟩ x = .ok [some f₁, some f₂, some f₃] ∧
        ∃ a b : ℝ, ((0 ≤ a ∧ a ≤ 1 / 4) ∨ (3 / 4 ≤ a ∧ a ≤ 1)) ∧ 0 ≤ b ∧ b ≤ 1 ∧ a * b ≤ f₁ ∧ (1 - a) * b ≤ f₂ ∧ 1 - b ≤ f₃) ∧
    ∀ a b : ℝ, ((0 ≤ a ∧ a ≤ 1 / 4) ∨ (3 / 4 ≤ a ∧ a ≤ 1)) → 0 ≤ b → b ≤ 1 → ∃ x, CecWithin (Cec09.bounds ⟨9, false, dim⟩) x ∧
      Cec09.fitness ⟨9, false, dim⟩ x = .ok [some (a * b), some ((1 - a) * b), some (1 - b)] := by
  constructor
  · intro x hx
    obtain ⟨hl, x0, x1, hx2⟩ := cec9In (by omega) (by omega) (by omega) hx
    obtain ⟨y0, y1⟩ := hx2 (by omega)
    rw [C145_uf (by omega) (by omega) (by rw [if_neg (by omega)]; exact hd) hx]
    have n : ∀ k, 0 ≤ mean2 (cecThird k dim) (fun j => cecZ dim (oneBased x) j ^ 2) := fun k => cec9Mean_nonneg _ (fun j _ => sq_nonneg _)
    have n1 := n 1
    have n2 := n 2
    have n3 := n 0
    set A := oneBased x 1 with hA
    set B := oneBased x 2 with hB
    have near : ∃ a : ℝ, ((0 ≤ a ∧ a ≤ 1 / 4) ∨ (3 / 4 ≤ a ∧ a ≤ 1)) ∧ |A - a| ≤ 1 / 2 * max 0 ((1 + 1 / 10) * (1 - 4 * (2 * A - 1) ^ 2)) := by
      have hm := le_max_right 0 ((1 + 1 / 10) * (1 - 4 * (2 * A - 1) ^ 2))
      have hm0 := le_max_left 0 ((1 + 1 / 10) * (1 - 4 * (2 * A - 1) ^ 2))
      by_cases h1 : A ≤ 1 / 4
      · exact ⟨A, .inl ⟨x0, h1⟩, by rw [sub_self, abs_zero]; linarith⟩
      · by_cases h2 : 3 / 4 ≤ A
        · exact ⟨A, .inr ⟨h2, x1⟩, by rw [sub_self, abs_zero]; linarith⟩
        · by_cases h3 : A ≤ 1 / 2
          · refine ⟨1 / 4, .inl (by norm_num), ?_⟩
            rw [abs_of_nonneg (by linarith)]; nlinarith
          · refine ⟨3 / 4, .inr (by norm_num), ?_⟩
            rw [abs_of_nonpos (by linarith)]; nlinarith
    obtain ⟨a, ha, hab⟩ := near
    have hab := abs_le.mp hab
    refine ⟨_, _, _, rfl, a, B, ha, y0, y1, ?_, ?_, ?_⟩
    · have := mul_le_mul_of_nonneg_right (show a ≤ 1 / 2 * (max 0 ((1 + 1 / 10) * (1 - 4 * (2 * A - 1) ^ 2)) + 2 * A) by linarith) y0
      linarith
    · have := mul_le_mul_of_nonneg_right (show 1 - a ≤ 1 / 2 * (max 0 ((1 + 1 / 10) * (1 - 4 * (2 * A - 1) ^ 2)) - 2 * A + 2) by linarith) y0
      linarith
    · linarith
  · intro a b ha b0 b1
    have ha' : 0 ≤ a ∧ a ≤ 1 := by rcases ha with ⟨h1, h2⟩ | ⟨h1, h2⟩ <;> constructor <;> linarith
    obtain ⟨o1, o2⟩ := cec9Surf_one (dim := dim) (by omega) a b
    have hm := cec9Surf_mem (i := 9) (by omega) (by omega) hd ha'.1 ha'.2 b0 b1
    refine ⟨_, hm, ?_⟩
    rw [C145_uf (by omega) (by omega) (by rw [if_neg (by omega)]; exact hd) hm]
    have z : ∀ k, mean2 (cecThird k dim) (fun j => cecZ dim (oneBased (cecPoint dim (cecSurf dim a b))) j ^ 2) = 0 :=
      fun k => cec9Mean_zero _ (fun j hj => by rw [cec9Surf_Z a b (cec9_mem_third hj).1 (cec9_mem_third hj).2]; norm_num)
    have hm : (1 + 1 / 10) * (1 - 4 * (2 * a - 1) ^ 2) ≤ 0 := by rcases ha with ⟨h1, h2⟩ | ⟨h1, h2⟩ <;> nlinarith
    simp only [ufObj, List.map_cons, List.map_nil]
    rw [z, z, z, o1, o2, max_eq_left hm, add_zero, add_zero, add_zero]
    congr 4
    · ring
    · congr 1
      congr 1
      ring

/-- dimension 30: the default -/
example : ∃ x, CecWithin (Cec09.bounds ⟨1, false, 30⟩) x ∧ Cec09.fitness ⟨1, false, 30⟩ x = .ok [some (1 / 4), some (1 - Real.sqrt (1 / 4))] :=
  (C146_uf123 (i := 1) (dim := 30) (by norm_num) (by norm_num) (by norm_num)).2 (1 / 4) (by norm_num) (by norm_num)

end Verif.Props
