import Verif.Props.Cec2009Con
import Verif.Props.Cec2009Pareto

/-!
# cec2009: the Pareto fronts of CF1-CF7
-/

set_option autoImplicit false

namespace Verif.Props

open Verif Verif.Cec09 Verif.Analytic Verif.Spec

/-- the first component of a vector within the bounds -/
theorem cec9InC {i dim : Nat} (hi : 1 ≤ i) (hi' : i ≤ 7) (hd : 1 ≤ dim) {x : List ℝ} (hx : CecWithin (Cec09.bounds ⟨i, true, dim⟩) x) :
    0 ≤ oneBased x 1 ∧ oneBased x 1 ≤ 1 := by
  have hf : cecFree i = 1 := by rw [cecFree, if_pos hi']
  exact ((C144_boundsCF hi (by omega) (by omega) x).mp hx).2.1 1 (le_refl _) (by omega)

/-- the curve around which the other components of an optimal vector lie -/
noncomputable def cecBase (i dim : Nat) (s : ℝ) (j : Nat) : ℝ :=
  if i = 1 then s ^ ((1 / 2 : ℝ) * (1 + 3 * ((j : ℝ) - 2) / ((dim : ℝ) - 2)))
  else if i = 2 then (if j % 2 = 1 then Real.sin (6 * Real.pi * s + j * Real.pi / dim) else Real.cos (6 * Real.pi * s + j * Real.pi / dim))
  else if i ≤ 4 then Real.sin (6 * Real.pi * s + j * Real.pi / dim)
  else (if i = 7 then 1 else 8 / 10 * s)
    * (if j % 2 = 1 then Real.cos (6 * Real.pi * s + j * Real.pi / dim) else Real.sin (6 * Real.pi * s + j * Real.pi / dim))

/-- components 2 and 4 off the curve -/
noncomputable def cecRun (i dim : Nat) (s d₂ d₄ : ℝ) (j : Nat) : ℝ :=
  if j = 1 then s else cecBase i dim s j + if j = 2 then d₂ else if j = 4 then d₄ else 0

theorem cec9Base_le {i dim : Nat} (hi : 2 ≤ i) {s : ℝ} (h0 : 0 ≤ s) (h1 : s ≤ 1) (j : Nat) : |cecBase i dim s j| ≤ 1 := by
  have hcs : |if j % 2 = 1 then Real.cos (6 * Real.pi * s + j * Real.pi / dim) else Real.sin (6 * Real.pi * s + j * Real.pi / dim)| ≤ 1 := by
    split
    · exact Real.abs_cos_le_one _
    · exact Real.abs_sin_le_one _
  rw [cecBase, if_neg (by omega)]
  by_cases h2 : i = 2
  · rw [if_pos h2]
    split
    · exact Real.abs_sin_le_one _
    · exact Real.abs_cos_le_one _
  · rw [if_neg h2]
    by_cases h4 : i ≤ 4
    · rw [if_pos h4]; exact Real.abs_sin_le_one _
    · rw [if_neg h4, abs_mul]
      have : |if i = 7 then 1 else 8 / 10 * s| ≤ 1 := by
        by_cases h7 : i = 7
        · rw [if_pos h7]; norm_num
        · rw [if_neg h7, abs_of_nonneg (by linarith)]; linarith
      calc _ ≤ (1 : ℝ) * 1 := mul_le_mul this hcs (abs_nonneg _) zero_le_one
        _ = 1 := by norm_num

theorem cec9Run_mem {i dim : Nat} (hi : 1 ≤ i) (hi' : i ≤ 7) (hd : cecLeast i ≤ dim) {s d₂ d₄ : ℝ} (h0 : 0 ≤ s) (h1 : s ≤ 1) (a0 : 0 ≤ d₂) (a1 : d₂ ≤ 1)
    (b0 : 0 ≤ d₄) (b1 : d₄ ≤ 1) (h3 : i ≤ 3 → d₂ = 0 ∧ d₄ = 0) :
    CecWithin (Cec09.bounds ⟨i, true, dim⟩) (cecPoint dim (cecRun i dim s d₂ d₄)) := by
  have hd1 : 2 ≤ dim := by refine le_trans ?_ hd; rw [cecLeast]; split_ifs <;> omega
  have hf : cecFree i = 1 := by rw [cecFree, if_pos hi']
  rw [C144_boundsCF hi (by omega) (by omega), hf]
  have he0 : ∀ j : Nat, 0 ≤ (if j = 2 then d₂ else if j = 4 then d₄ else 0) ∧ (if j = 2 then d₂ else if j = 4 then d₄ else 0) ≤ 1 := by
    intro j
    by_cases h2 : j = 2
    · rw [if_pos h2]; exact ⟨a0, a1⟩
    · rw [if_neg h2]
      by_cases h4 : j = 4
      · rw [if_pos h4]; exact ⟨b0, b1⟩
      · rw [if_neg h4]; norm_num
  have hez : i ≤ 3 → ∀ j : Nat, (if j = 2 then d₂ else if j = 4 then d₄ else 0) = 0 := by
    intro h j
    obtain ⟨e1, e2⟩ := h3 h
    rw [e1, e2, ite_self, ite_self]
  refine ⟨cec9Point_length _ _, fun j a b => ?_, fun j a b => ?_⟩
  · rw [cec9Point _ a (by omega), cecRun, if_pos (by omega)]; exact ⟨h0, h1⟩
  · have e : cecRun i dim s d₂ d₄ j = cecBase i dim s j + if j = 2 then d₂ else if j = 4 then d₄ else 0 := by rw [cecRun, if_neg (by omega)]
    rw [cec9Point _ (by omega) b, e]
    by_cases hi1 : i = 1
    · rw [if_pos hi1, hez (by omega), add_zero]
      have ec : cecBase i dim s j = s ^ ((1 / 2 : ℝ) * (1 + 3 * ((j : ℝ) - 2) / ((dim : ℝ) - 2))) := by rw [cecBase, if_pos hi1]
      rw [ec]
      refine ⟨Real.rpow_nonneg h0 _, Real.rpow_le_one h0 h1 ?_⟩
      have : (2 : ℝ) < dim := by
        have : 3 ≤ dim := by rw [hi1] at hd; exact hd
        exact_mod_cast this
      have : (2 : ℝ) ≤ j := by exact_mod_cast a
      exact mul_nonneg (by norm_num) (add_nonneg zero_le_one (div_nonneg (by linarith) (by linarith)))
    · rw [if_neg hi1]
      have hb := abs_le.mp (cec9Base_le (i := i) (dim := dim) (by omega) h0 h1 j)
      have he := he0 j
      by_cases hi2 : i = 2
      · rw [if_pos hi2, hez (by omega), add_zero]; exact abs_le.mpr hb
      · rw [if_neg hi2, if_neg (by omega : ¬i = 8), abs_le]; constructor <;> linarith

theorem cec9Run_one {i dim : Nat} (hd : 1 ≤ dim) (s d₂ d₄ : ℝ) : oneBased (cecPoint dim (cecRun i dim s d₂ d₄)) 1 = s := by
  rw [cec9Point _ (le_refl _) hd, cecRun, if_pos rfl]

theorem cec9Run_j {i dim : Nat} (s d₂ d₄ : ℝ) {j : Nat} (h2 : 2 ≤ j) (hj : j ≤ dim) :
    oneBased (cecPoint dim (cecRun i dim s d₂ d₄)) j = cecBase i dim s j + if j = 2 then d₂ else if j = 4 then d₄ else 0 := by
  rw [cec9Point _ (by omega) hj, cecRun, if_neg (by omega)]

theorem cec9Run_P {dim : Nat} (s : ℝ) {j : Nat} (h2 : 2 ≤ j) (hj : j ≤ dim) : cecP dim (oneBased (cecPoint dim (cecRun 1 dim s 0 0))) j = 0 := by
  rw [cecP, cec9Run_one (by omega), cec9Run_j _ _ _ h2 hj, ite_self, ite_self, cecBase, if_pos rfl, add_zero, sub_self]

theorem cec9Run_SC {dim : Nat} (s : ℝ) {j : Nat} (h2 : 2 ≤ j) (hj : j ≤ dim) : cecSC dim (oneBased (cecPoint dim (cecRun 2 dim s 0 0))) j = 0 := by
  rw [cecSC, cec9Run_one (by omega), cec9Run_j _ _ _ h2 hj, ite_self, ite_self, cecBase, if_neg (by omega), if_pos rfl, add_zero, sub_self]

theorem cec9Run_Y {i dim : Nat} (hi : 3 ≤ i) (hi' : i ≤ 4) (s d₂ d₄ : ℝ) {j : Nat} (h2 : 2 ≤ j) (hj : j ≤ dim) :
    cecY dim (oneBased (cecPoint dim (cecRun i dim s d₂ d₄))) j = if j = 2 then d₂ else if j = 4 then d₄ else 0 := by
  rw [cecY, cec9Run_one (by omega), cec9Run_j _ _ _ h2 hj, cecBase, if_neg (by omega), if_neg (by omega), if_pos (by omega)]
  ring

theorem cec9Run_CS {i dim : Nat} (hi : 5 ≤ i) (s d₂ d₄ : ℝ) {j : Nat} (h2 : 2 ≤ j) (hj : j ≤ dim) :
    cecCS dim (if i = 7 then 1 else 8 / 10 * s) (oneBased (cecPoint dim (cecRun i dim s d₂ d₄))) j = if j = 2 then d₂ else if j = 4 then d₄ else 0 := by
  rw [cecCS, cec9Run_one (by omega), cec9Run_j _ _ _ h2 hj, cecBase, if_neg (by omega), if_neg (by omega), if_neg (by omega)]
  ring

/-- a feasible vector: the fitness of `x` and the constraint -/
theorem cec9Fit1 {i dim : Nat} (hi : 1 ≤ i) (hi' : i ≤ 10) (hd : cecLeast i ≤ dim) {x : List ℝ} (hx : CecWithin (Cec09.bounds ⟨i, true, dim⟩) x)
    {f₁ f₂ g : ℝ} (hf : cfObj dim (oneBased x) i = [f₁, f₂]) (hg : cfCon dim (oneBased x) f₁ f₂ 0 i = [some g]) :
    Cec09.fitness ⟨i, true, dim⟩ x = .ok [some f₁, some f₂, some (-g)] := by
  rw [C147_cf hi hi' hd hx, cfFit, hf]
  simp only [List.getD_cons_zero, List.getD_cons_succ, List.getD_nil]
  rw [hg]; rfl

/-- C148: CF1: the front consists of the 21 points (k/20, 1 - k/20) -/
theorem C148_cf1 {dim : Nat} (hd : 3 ≤ dim) :
    (∀ x, CecWithin (Cec09.bounds ⟨1, true, dim⟩) x → ∃ f₁ f₂ g, Cec09.fitness ⟨1, true, dim⟩ x = .ok [some f₁, some f₂, some g] ∧
      (g ≤ 0 → ∃ k : Nat, k ≤ 20 ∧ k / 20 ≤ f₁ ∧ 1 - k / 20 ≤ f₂)) ∧
    ∀ k : Nat, k ≤ 20 → ∃ x, CecWithin (Cec09.bounds ⟨1, true, dim⟩) x ∧
      ∃ g ≤ 0, Cec09.fitness ⟨1, true, dim⟩ x = .ok [some (k / 20), some (1 - k / 20), some g] := by
  constructor
  · intro x hx
    obtain ⟨x0, x1⟩ := cec9InC (by omega) (by omega) (by omega) hx
    refine ⟨_, _, _, cec9Fit1 (by omega) (by omega) hd hx rfl rfl, fun hg => ?_⟩
    have n1 := cec9Mean_nonneg (cecOdd dim) (fun j _ => sq_nonneg (cecP dim (oneBased x) j))
    have n2 := cec9Mean_nonneg (cecEven dim) (fun j _ => sq_nonneg (cecP dim (oneBased x) j))
    set f₁ := oneBased x 1 + mean2 (cecOdd dim) (fun j => cecP dim (oneBased x) j ^ 2)
    set f₂ := 1 - oneBased x 1 + mean2 (cecEven dim) (fun j => cecP dim (oneBased x) j ^ 2)
    have p1 : 0 ≤ f₁ := by linarith
    have p2 : 0 ≤ f₂ := by linarith
    by_cases h0 : f₁ - f₂ + 1 < 0
    · exact ⟨0, by omega, by norm_num; exact p1, by norm_num; linarith⟩
    · by_cases h1 : 2 < f₁ - f₂ + 1
      · exact ⟨20, by omega, by norm_num; linarith, by norm_num; exact p2⟩
      · obtain ⟨k, hk, hn⟩ := cec9Near (a := (f₁ - f₂ + 1) / 2) (by linarith) (by linarith)
        rw [show 20 * Real.pi * ((f₁ - f₂ + 1) / 2) = 10 * Real.pi * (f₁ - f₂ + 1) by ring] at hn
        have hs := abs_nonneg (Real.sin (10 * Real.pi * (f₁ - f₂ + 1)))
        have hn := abs_le.mp hn
        refine ⟨k, hk, ?_, ?_⟩ <;> linarith
  · intro k hk
    have hk' : (k : ℝ) ≤ 20 := by exact_mod_cast hk
    have hk0 : (0 : ℝ) ≤ k := Nat.cast_nonneg _
    have hm := cec9Run_mem (i := 1) (s := k / 20) (d₂ := 0) (d₄ := 0) (by omega) (by omega) hd (by positivity) (by linarith) (le_refl _) zero_le_one
      (le_refl _) zero_le_one (fun _ => ⟨rfl, rfl⟩)
    have ho : cfObj dim (oneBased (cecPoint dim (cecRun 1 dim (k / 20) 0 0))) 1 = [(k : ℝ) / 20, 1 - (k : ℝ) / 20] := by
      simp only [cfObj]
      rw [cec9Run_one (by omega), cec9Mean_zero _ (fun j hj => by rw [cec9Run_P _ (cec9_mem_odd hj).1 (cec9_mem_odd hj).2]; norm_num),
        cec9Mean_zero _ (fun j hj => by rw [cec9Run_P _ (cec9_mem_even hj).1 (cec9_mem_even hj).2]; norm_num), add_zero, add_zero]
    refine ⟨_, hm, _, ?_, cec9Fit1 (by omega) (by omega) hd hm ho rfl⟩
    rw [show 10 * Real.pi * ((k : ℝ) / 20 - (1 - (k : ℝ) / 20) + 1) = k * Real.pi by ring, Real.sin_nat_mul_pi, abs_zero]
    linarith

/-- the part of the argument common to CF2 and CF3 -/
theorem cec9Wave {s v : ℝ} (h1 : 0 ≤ s) (h2 : 0 ≤ v) (h3 : 1 ≤ v + s) (h : Real.sin (2 * Real.pi * (s - v + 1)) ≤ v + s - 1) :
    ∃ b : ℝ, cecGap b ∧ b ≤ s ∧ 1 - b ≤ v := by
  by_cases h0 : s - v + 1 < 0
  · exact ⟨0, .inl rfl, h1, by linarith⟩
  · by_cases h4 : 2 < s - v + 1
    · exact ⟨1, .inr (.inr (by norm_num)), by linarith, by linarith⟩
    · obtain ⟨b, hb, hn⟩ := cec9Gap_near (a := (s - v + 1) / 2) (by linarith) (by linarith)
      rw [show 4 * Real.pi * ((s - v + 1) / 2) = 2 * Real.pi * (s - v + 1) by ring] at hn
      have hm : max 0 (1 / 2 * Real.sin (2 * Real.pi * (s - v + 1))) ≤ 1 / 2 * (v + s - 1) := max_le (by linarith) (by linarith)
      have hn := abs_le.mp (hn.trans hm)
      refine ⟨b, hb, ?_, ?_⟩ <;> linarith

theorem cec9Gap_le {b : ℝ} (hb : cecGap b) : 0 ≤ b ∧ b ≤ 1 := by
  rcases hb with rfl | ⟨h1, h2⟩ | ⟨h1, h2⟩
  · norm_num
  · constructor <;> linarith
  · constructor <;> linarith

theorem cec9Damp {t : ℝ} : -(t / (1 + Real.exp (4 * |t|))) ≤ 0 ↔ 0 ≤ t := by
  have : 0 < 1 + Real.exp (4 * |t|) := by positivity
  rw [neg_nonpos]
  constructor
  · intro h
    by_contra hn
    exact absurd h (not_le.mpr (div_neg_of_neg_of_pos (not_le.mp hn) this))
  · intro h; positivity

/-- C148: CF2: the front is f₂ = 1 - √f₁ for √f₁ = 0, from 1/4 to 1/2, and from 3/4 to 1 -/
theorem C148_cf2 {dim : Nat} (hd : 3 ≤ dim) :
    (∀ x, CecWithin (Cec09.bounds ⟨2, true, dim⟩) x → ∃ f₁ f₂ g, Cec09.fitness ⟨2, true, dim⟩ x = .ok [some f₁, some f₂, some g] ∧
      (g ≤ 0 → ∃ b : ℝ, (b = 0 ∨ (1 / 4 ≤ b ∧ b ≤ 1 / 2) ∨ (3 / 4 ≤ b ∧ b ≤ 1)) ∧ b ^ 2 ≤ f₁ ∧ 1 - b ≤ f₂)) ∧
    ∀ b : ℝ, (b = 0 ∨ (1 / 4 ≤ b ∧ b ≤ 1 / 2) ∨ (3 / 4 ≤ b ∧ b ≤ 1)) → ∃ x, CecWithin (Cec09.bounds ⟨2, true, dim⟩) x ∧
      ∃ g ≤ 0, Cec09.fitness ⟨2, true, dim⟩ x = .ok [some (b ^ 2), some (1 - b), some g] := by
  constructor
  · intro x hx
    obtain ⟨x0, x1⟩ := cec9InC (by omega) (by omega) (by omega) hx
    refine ⟨_, _, _, cec9Fit1 (by omega) (by omega) hd hx rfl rfl, fun hg => ?_⟩
    have n1 := cec9Mean_nonneg (cecOdd dim) (fun j _ => sq_nonneg (cecSC dim (oneBased x) j))
    have n2 := cec9Mean_nonneg (cecEven dim) (fun j _ => sq_nonneg (cecSC dim (oneBased x) j))
    have e0 : Real.sqrt (oneBased x 1) ≤ Real.sqrt (oneBased x 1 + mean2 (cecOdd dim) (fun j => cecSC dim (oneBased x) j ^ 2)) :=
      Real.sqrt_le_sqrt (by linarith)
    have e1 : Real.sqrt (oneBased x 1) ≤ 1 := Real.sqrt_le_one.mpr x1
    have hg := cec9Damp.mp hg
    have hs := Real.sqrt_nonneg (oneBased x 1 + mean2 (cecOdd dim) (fun j => cecSC dim (oneBased x) j ^ 2))
    have hs2 := Real.sq_sqrt (show 0 ≤ oneBased x 1 + mean2 (cecOdd dim) (fun j => cecSC dim (oneBased x) j ^ 2) by linarith)
    set s := Real.sqrt (oneBased x 1 + mean2 (cecOdd dim) (fun j => cecSC dim (oneBased x) j ^ 2))
    obtain ⟨b, hb, h1, h2⟩ := cec9Wave (s := s) (v := 1 - Real.sqrt (oneBased x 1) + mean2 (cecEven dim) (fun j => cecSC dim (oneBased x) j ^ 2))
      hs (by linarith) (by linarith) (by linarith)
    exact ⟨b, hb, by rw [← hs2]; exact pow_le_pow_left₀ (cec9Gap_le hb).1 h1 2, h2⟩
  · intro b hb
    obtain ⟨b0, b1⟩ := cec9Gap_le hb
    have hm := cec9Run_mem (i := 2) (s := b ^ 2) (d₂ := 0) (d₄ := 0) (by omega) (by omega) hd (sq_nonneg b) (pow_le_one₀ b0 b1) (le_refl _) zero_le_one
      (le_refl _) zero_le_one (fun _ => ⟨rfl, rfl⟩)
    have ho : cfObj dim (oneBased (cecPoint dim (cecRun 2 dim (b ^ 2) 0 0))) 2 = [b ^ 2, 1 - b] := by
      simp only [cfObj]
      rw [cec9Run_one (by omega), cec9Mean_zero _ (fun j hj => by rw [cec9Run_SC _ (cec9_mem_odd hj).1 (cec9_mem_odd hj).2]; norm_num),
        cec9Mean_zero _ (fun j hj => by rw [cec9Run_SC _ (cec9_mem_even hj).1 (cec9_mem_even hj).2]; norm_num), add_zero, add_zero, Real.sqrt_sq b0]
    refine ⟨_, hm, _, ?_, cec9Fit1 (by omega) (by omega) hd hm ho rfl⟩
    rw [cec9Damp, Real.sqrt_sq b0, show 2 * Real.pi * (b - (1 - b) + 1) = 4 * Real.pi * b by ring]
    linarith [cec9Gap_sin hb]

/-- C148: CF3: the front is f₂ = 1 - f₁² for f₁² = 0, from 1/4 to 1/2, and from 3/4 to 1 -/
theorem C148_cf3 {dim : Nat} (hd : 3 ≤ dim) :
    (∀ x, CecWithin (Cec09.bounds ⟨3, true, dim⟩) x → ∃ f₁ f₂ g, Cec09.fitness ⟨3, true, dim⟩ x = .ok [some f₁, some f₂, some g] ∧
      (g ≤ 0 → ∃ b : ℝ, (b = 0 ∨ (1 / 4 ≤ b ∧ b ≤ 1 / 2) ∨ (3 / 4 ≤ b ∧ b ≤ 1)) ∧ Real.sqrt b ≤ f₁ ∧ 1 - b ≤ f₂)) ∧
    ∀ b : ℝ, (b = 0 ∨ (1 / 4 ≤ b ∧ b ≤ 1 / 2) ∨ (3 / 4 ≤ b ∧ b ≤ 1)) → ∃ x, CecWithin (Cec09.bounds ⟨3, true, dim⟩) x ∧
      ∃ g ≤ 0, Cec09.fitness ⟨3, true, dim⟩ x = .ok [some (Real.sqrt b), some (1 - b), some g] := by
  constructor
  · intro x hx
    obtain ⟨x0, x1⟩ := cec9InC (by omega) (by omega) (by omega) hx
    refine ⟨_, _, _, cec9Fit1 (by omega) (by omega) hd hx rfl rfl, fun hg => ?_⟩
    have n1 := cec9Multi_nonneg (cecOdd dim) (cecY dim (oneBased x))
    have n2 := cec9Multi_nonneg (cecEven dim) (cecY dim (oneBased x))
    set f₁ := oneBased x 1 + multi2 (cecOdd dim) (cecY dim (oneBased x)) with hf₁
    have p1 : oneBased x 1 ≤ f₁ := by linarith
    have p2 : oneBased x 1 ^ 2 ≤ f₁ ^ 2 := pow_le_pow_left₀ x0 p1 2
    have p3 : oneBased x 1 ^ 2 ≤ 1 := pow_le_one₀ x0 x1
    obtain ⟨b, hb, h1, h2⟩ := cec9Wave (s := f₁ ^ 2) (v := 1 - oneBased x 1 ^ 2 + multi2 (cecEven dim) (cecY dim (oneBased x)))
      (sq_nonneg _) (by linarith) (by linarith) (by linarith)
    exact ⟨b, hb, Real.sqrt_le_iff.mpr ⟨by linarith, h1⟩, h2⟩
  · intro b hb
    obtain ⟨b0, b1⟩ := cec9Gap_le hb
    have hm := cec9Run_mem (i := 3) (s := Real.sqrt b) (d₂ := 0) (d₄ := 0) (by omega) (by omega) hd (Real.sqrt_nonneg b) (Real.sqrt_le_one.mpr b1)
      (le_refl _) zero_le_one (le_refl _) zero_le_one (fun _ => ⟨rfl, rfl⟩)
    have ho : cfObj dim (oneBased (cecPoint dim (cecRun 3 dim (Real.sqrt b) 0 0))) 3 = [Real.sqrt b, 1 - b] := by
      simp only [cfObj]
      rw [cec9Run_one (by omega), cec9Multi_zero _ (fun j hj => by
          rw [cec9Run_Y (by omega) (by omega) _ _ _ (cec9_mem_odd hj).1 (cec9_mem_odd hj).2, ite_self, ite_self]),
        cec9Multi_zero _ (fun j hj => by
          rw [cec9Run_Y (by omega) (by omega) _ _ _ (cec9_mem_even hj).1 (cec9_mem_even hj).2, ite_self, ite_self]), add_zero, add_zero, Real.sq_sqrt b0]
    refine ⟨_, hm, _, ?_, cec9Fit1 (by omega) (by omega) hd hm ho rfl⟩
    rw [Real.sq_sqrt b0, show 2 * Real.pi * (b - (1 - b) + 1) = 4 * Real.pi * b by ring]
    linarith [cec9Gap_sin hb]

/-- the second objective on the front of CF4 and CF5 -/
noncomputable def cecKink (s : ℝ) : ℝ := if s ≤ 1 / 2 then 1 - s else if s ≤ 3 / 4 then 3 / 4 - s / 2 else 9 / 8 - s

theorem cec9Two_ge (y : ℝ) : 0 ≤ cecTwo y ∧ ∀ w, 0 ≤ w → w ≤ y → min w (1 / 8) ≤ cecTwo y := by
  rw [cecTwo]
  by_cases h : y < 3 / 2 * (1 - Real.sqrt 2 / 2)
  · rw [if_pos h]; exact ⟨abs_nonneg _, fun w h0 hw => (min_le_left _ _).trans (hw.trans (le_abs_self _))⟩
  · rw [if_neg h]
    have := sq_nonneg (y - 1)
    exact ⟨by linarith, fun w _ _ => (min_le_right _ _).trans (by linarith)⟩

theorem cec9Kink_ge {s y : ℝ} (h : 0 ≤ y - 1 / 2 * s + 1 / 4) : cecKink s ≤ 1 - s + cecTwo y := by
  obtain ⟨h0, h1⟩ := cec9Two_ge y
  rw [cecKink]
  by_cases a : s ≤ 1 / 2
  · rw [if_pos a]; linarith
  · rw [if_neg a]
    have h2 := h1 (1 / 2 * s - 1 / 4) (by linarith) (by linarith)
    by_cases b : s ≤ 3 / 4
    · rw [if_pos b]
      rw [min_eq_left (by linarith)] at h2; linarith
    · rw [if_neg b]
      rw [min_eq_right (by linarith)] at h2; linarith

/-- the deviation of the second component on the front of CF4 and CF5 -/
noncomputable def cecDev (s : ℝ) : ℝ := if s ≤ 1 / 2 then 0 else if s ≤ 3 / 4 then s / 2 - 1 / 4 else 1

theorem cec9Dev {s : ℝ} (h1 : s ≤ 1) : 0 ≤ cecDev s ∧ cecDev s ≤ 1 ∧ 0 ≤ cecDev s - 1 / 2 * s + 1 / 4 ∧ 1 - s + cecTwo (cecDev s) = cecKink s := by
  have q1 : Real.sqrt 2 ≤ 3 / 2 := Real.sqrt_le_iff.mpr (by norm_num)
  have q2 : 1 ≤ Real.sqrt 2 := Real.one_le_sqrt.mpr (by norm_num)
  rw [cecDev, cecKink]
  by_cases a : s ≤ 1 / 2
  · rw [if_pos a, if_pos a]
    refine ⟨le_refl _, zero_le_one, by linarith, ?_⟩
    rw [cecTwo, if_pos (by nlinarith), abs_zero, add_zero]
  · rw [if_neg a, if_neg a]
    by_cases b : s ≤ 3 / 4
    · rw [if_pos b, if_pos b]
      refine ⟨by linarith, by linarith, by linarith, ?_⟩
      rw [cecTwo, if_pos (by nlinarith), abs_of_nonneg (by linarith)]; ring
    · rw [if_neg b, if_neg b]
      refine ⟨zero_le_one, le_refl _, by linarith, ?_⟩
      rw [cecTwo, if_neg (by nlinarith)]; ring

theorem cec9_two_mem {n : Nat} (h : 2 ≤ n) : 2 ∈ cecEven n := by rw [cecEven, Finset.mem_filter, Finset.mem_Icc]; omega
theorem cec9_four_mem {n : Nat} (h : 4 ≤ n) : 4 ∈ cecEven n := by rw [cecEven, Finset.mem_filter, Finset.mem_Icc]; omega
theorem cec9_odd_two {n j : Nat} (h : j ∈ cecOdd n) : ¬j = 2 ∧ ¬j = 4 := by rw [cecOdd, Finset.mem_filter, Finset.mem_Icc] at h; omega

/-- C148: CF4 and CF5: the front is f₂ = 1 - f₁ up to f₁ = 1/2, 3/4 - f₁/2 up to f₁ = 3/4, 9/8 - f₁ up to f₁ = 1 -/
theorem C148_cf45 {i dim : Nat} (hi : i = 4 ∨ i = 5) (hd : 2 ≤ dim) :
    (∀ x, CecWithin (Cec09.bounds ⟨i, true, dim⟩) x → ∃ f₁ f₂ g, Cec09.fitness ⟨i, true, dim⟩ x = .ok [some f₁, some f₂, some g] ∧
      (g ≤ 0 → ∃ s : ℝ, 0 ≤ s ∧ s ≤ 1 ∧ s ≤ f₁ ∧ (if s ≤ 1 / 2 then 1 - s else if s ≤ 3 / 4 then 3 / 4 - s / 2 else 9 / 8 - s) ≤ f₂)) ∧
    ∀ s : ℝ, 0 ≤ s → s ≤ 1 → ∃ x, CecWithin (Cec09.bounds ⟨i, true, dim⟩) x ∧ ∃ g ≤ 0, Cec09.fitness ⟨i, true, dim⟩ x
      = .ok [some s, some (if s ≤ 1 / 2 then 1 - s else if s ≤ 3 / 4 then 3 / 4 - s / 2 else 9 / 8 - s), some g] := by
  have hl : cecLeast i = 2 := by rcases hi with rfl | rfl <;> rfl
  constructor
  · intro x hx
    obtain ⟨x0, x1⟩ := cec9InC (by omega) (by omega) (by omega) hx
    rcases hi with rfl | rfl
    · refine ⟨_, _, _, cec9Fit1 (by omega) (by omega) hd hx rfl rfl, fun hg => ⟨oneBased x 1, x0, x1, ?_, ?_⟩⟩
      · linarith [Finset.sum_nonneg (s := cecOdd dim) (fun j _ => sq_nonneg (cecY dim (oneBased x) j))]
      · have hg := cec9Damp.mp hg
        refine (cec9Kink_ge hg).trans ?_
        have := Finset.single_le_sum (f := fun j => if j = 2 then cecTwo (cecY dim (oneBased x) j) else cecY dim (oneBased x) j ^ 2) (fun j _ => by
          split
          · exact (cec9Two_ge _).1
          · exact sq_nonneg _) (cec9_two_mem hd)
        rw [if_pos rfl] at this
        linarith
    · refine ⟨_, _, _, cec9Fit1 (by omega) (by omega) hd hx rfl rfl, fun hg => ⟨oneBased x 1, x0, x1, ?_, ?_⟩⟩
      · linarith [Finset.sum_nonneg (s := cecOdd dim) (fun j _ => cec9H_nonneg (cecCS dim (8 / 10 * oneBased x 1) (oneBased x) j))]
      · have hg := neg_nonpos.mp hg
        refine (cec9Kink_ge hg).trans ?_
        have := Finset.single_le_sum (f := fun j => if j = 2 then cecTwo (cecCS dim (8 / 10 * oneBased x 1) (oneBased x) j)
            else cecH (cecCS dim (8 / 10 * oneBased x 1) (oneBased x) j)) (fun j _ => by
          split
          · exact (cec9Two_ge _).1
          · exact cec9H_nonneg _) (cec9_two_mem hd)
        rw [if_pos rfl] at this
        linarith
  · intro s h0 h1
    obtain ⟨d0, d1, dg, dv⟩ := cec9Dev h1
    have hm := cec9Run_mem (i := i) (s := s) (d₂ := cecDev s) (d₄ := 0) (by omega) (by omega) (hl.le.trans hd) h0 h1 d0 d1
      (le_refl _) zero_le_one (fun _ => by omega)
    rcases hi with rfl | rfl
    · have hy : ∀ j, 2 ≤ j → j ≤ dim → cecY dim (oneBased (cecPoint dim (cecRun 4 dim s (cecDev s) 0))) j = if j = 2 then cecDev s else 0 := by
        intro j a b
        rw [cec9Run_Y (by omega) (by omega) _ _ _ a b, ite_self]
      have ho : cfObj dim (oneBased (cecPoint dim (cecRun 4 dim s (cecDev s) 0))) 4 = [s, cecKink s] := by
        simp only [cfObj]
        rw [cec9Run_one (by omega), Finset.sum_eq_zero (fun j hj => by
            rw [hy j (cec9_mem_odd hj).1 (cec9_mem_odd hj).2, if_neg (cec9_odd_two hj).1]; norm_num), add_zero,
          Finset.sum_eq_single 2 (fun j hj hj' => by
            rw [if_neg hj', hy j (cec9_mem_even hj).1 (cec9_mem_even hj).2, if_neg hj']; norm_num) (fun h => absurd (cec9_two_mem hd) h),
          if_pos rfl, hy 2 (le_refl _) hd, if_pos rfl, dv]
      refine ⟨_, hm, _, ?_, cec9Fit1 (by omega) (by omega) hd hm ho rfl⟩
      rw [cec9Damp, cec9Run_one (by omega), hy 2 (le_refl _) hd, if_pos rfl]
      exact dg
    · have hy : ∀ j, 2 ≤ j → j ≤ dim → cecCS dim (8 / 10 * s) (oneBased (cecPoint dim (cecRun 5 dim s (cecDev s) 0))) j = if j = 2 then cecDev s else 0 := by
        intro j a b
        have := cec9Run_CS (i := 5) (by omega) s (cecDev s) 0 a b
        rw [if_neg (by omega : ¬(5 = 7)), ite_self] at this
        exact this
      have ho : cfObj dim (oneBased (cecPoint dim (cecRun 5 dim s (cecDev s) 0))) 5 = [s, cecKink s] := by
        simp only [cfObj]
        rw [cec9Run_one (by omega), Finset.sum_eq_zero (fun j hj => by
            rw [hy j (cec9_mem_odd hj).1 (cec9_mem_odd hj).2, if_neg (cec9_odd_two hj).1]; exact cec9H_zero), add_zero,
          Finset.sum_eq_single 2 (fun j hj hj' => by
            rw [if_neg hj', hy j (cec9_mem_even hj).1 (cec9_mem_even hj).2, if_neg hj']; exact cec9H_zero) (fun h => absurd (cec9_two_mem hd) h),
          if_pos rfl, hy 2 (le_refl _) hd, if_pos rfl, dv]
      refine ⟨_, hm, _, ?_, cec9Fit1 (by omega) (by omega) hd hm ho rfl⟩
      rw [neg_nonpos, cec9Run_one (by omega), hy 2 (le_refl _) hd, if_pos rfl]
      exact dg

theorem cec9Root_sq {v y : ℝ} (h : cecRoot v ≤ y) : max 0 v ≤ y ^ 2 := by
  refine max_le (sq_nonneg _) ?_
  by_cases hv : 0 < v
  · rw [cecRoot, Real.sign_of_pos hv, abs_of_pos hv, one_mul] at h
    calc v = Real.sqrt v ^ 2 := (Real.sq_sqrt hv.le).symm
      _ ≤ y ^ 2 := pow_le_pow_left₀ (Real.sqrt_nonneg _) h 2
  · exact (not_lt.mp hv).trans (sq_nonneg _)

theorem cec9Root_le (v : ℝ) : cecRoot v ≤ Real.sqrt (max 0 v) := by
  rw [cecRoot]
  rcases lt_trichotomy v 0 with h | h | h
  · rw [Real.sign_of_neg h]
    have := Real.sqrt_nonneg |v|
    have := Real.sqrt_nonneg (max 0 v)
    linarith
  · rw [h]; simp
  · rw [Real.sign_of_pos h, one_mul, abs_of_pos h, max_eq_right h.le]

/-- the second objective on the front of CF6 and CF7 -/
noncomputable def cecArch (s : ℝ) : ℝ := if s ≤ 1 / 2 then (1 - s) ^ 2 else if s ≤ 3 / 4 then (1 - s) / 2 else Real.sqrt (1 - s) / 4

theorem cec9Arch {s : ℝ} (h1 : s ≤ 1) :
    (1 - s) ^ 2 + max 0 ((s - 1 / 2) * (1 - s)) + max 0 (1 / 4 * Real.sqrt (1 - s) - 1 / 2 * (1 - s)) = cecArch s := by
  have hw := Real.sqrt_nonneg (1 - s)
  have hw2 := Real.sq_sqrt (show 0 ≤ 1 - s by linarith)
  set w := Real.sqrt (1 - s)
  have low : s ≤ 3 / 4 → 1 / 4 * w - 1 / 2 * (1 - s) ≤ 0 := by
    intro h
    have : 1 / 2 ≤ w := by
      by_contra hn
      nlinarith
    nlinarith
  rw [cecArch]
  by_cases a : s ≤ 1 / 2
  · rw [if_pos a, max_eq_left (by nlinarith), max_eq_left (low (by linarith))]; ring
  · rw [if_neg a, max_eq_right (by nlinarith)]
    by_cases b : s ≤ 3 / 4
    · rw [if_pos b, max_eq_left (low b)]; ring
    · rw [if_neg b, max_eq_right (by
        have : w ≤ 1 / 2 := by nlinarith
        nlinarith)]
      ring

/-- a feasible vector: fitness with two constraints -/
theorem cec9Fit2 {i dim : Nat} (hi : 1 ≤ i) (hi' : i ≤ 10) (hd : cecLeast i ≤ dim) {x : List ℝ} (hx : CecWithin (Cec09.bounds ⟨i, true, dim⟩) x)
    {f₁ f₂ g h : ℝ} (hf : cfObj dim (oneBased x) i = [f₁, f₂]) (hg : cfCon dim (oneBased x) f₁ f₂ 0 i = [some g, some h]) :
    Cec09.fitness ⟨i, true, dim⟩ x = .ok [some f₁, some f₂, some (-g), some (-h)] := by
  rw [C147_cf hi hi' hd hx, cfFit, hf]
  simp only [List.getD_cons_zero, List.getD_cons_succ, List.getD_nil]
  rw [hg]; rfl

theorem cec9Pair {dim : Nat} (hd : 4 ≤ dim) {h : Nat → ℝ} (hh : ∀ j, 0 ≤ h j) : h 2 + h 4 ≤ ∑ j ∈ cecEven dim, h j := by
  rw [← Finset.sum_pair (by omega : (2 : Nat) ≠ 4)]
  refine Finset.sum_le_sum_of_subset_of_nonneg ?_ (fun j _ _ => hh j)
  intro j hj
  rw [Finset.mem_insert, Finset.mem_singleton] at hj
  rcases hj with rfl | rfl
  · exact cec9_two_mem (by omega)
  · exact cec9_four_mem hd

theorem cec9Pair_eq {dim : Nat} (hd : 4 ≤ dim) {h : Nat → ℝ} (hh : ∀ j ∈ cecEven dim, j ≠ 2 → j ≠ 4 → h j = 0) : ∑ j ∈ cecEven dim, h j = h 2 + h 4 := by
  rw [← Finset.sum_pair (by omega : (2 : Nat) ≠ 4)]
  symm
  refine Finset.sum_subset ?_ (fun j hj hn => ?_)
  · intro j hj
    rw [Finset.mem_insert, Finset.mem_singleton] at hj
    rcases hj with rfl | rfl
    · exact cec9_two_mem (by omega)
    · exact cec9_four_mem hd
  · rw [Finset.mem_insert, Finset.mem_singleton] at hn
    exact hh j hj (fun h => hn (.inl h)) (fun h => hn (.inr h))

/-- C148: CF6 and CF7: the front is f₂ = (1 - f₁)² up to f₁ = 1/2, (1 - f₁)/2 up to f₁ = 3/4, √(1 - f₁)/4 up to f₁ = 1 -/
theorem C148_cf67 {i dim : Nat} (hi : i = 6 ∨ i = 7) (hd : 4 ≤ dim) :
    (∀ x, CecWithin (Cec09.bounds ⟨i, true, dim⟩) x → ∃ f₁ f₂ g h, Cec09.fitness ⟨i, true, dim⟩ x = .ok [some f₁, some f₂, some g, some h] ∧
      (g ≤ 0 → h ≤ 0 → ∃ s : ℝ, 0 ≤ s ∧ s ≤ 1 ∧ s ≤ f₁ ∧
        (if s ≤ 1 / 2 then (1 - s) ^ 2 else if s ≤ 3 / 4 then (1 - s) / 2 else Real.sqrt (1 - s) / 4) ≤ f₂)) ∧
    ∀ s : ℝ, 0 ≤ s → s ≤ 1 → ∃ x, CecWithin (Cec09.bounds ⟨i, true, dim⟩) x ∧ ∃ g ≤ 0, ∃ h ≤ 0, Cec09.fitness ⟨i, true, dim⟩ x
      = .ok [some s, some (if s ≤ 1 / 2 then (1 - s) ^ 2 else if s ≤ 3 / 4 then (1 - s) / 2 else Real.sqrt (1 - s) / 4), some g, some h] := by
  have hl : cecLeast i = 4 := by rcases hi with rfl | rfl <;> rfl
  constructor
  · intro x hx
    obtain ⟨x0, x1⟩ := cec9InC (by omega) (by omega) (by omega) hx
    rcases hi with rfl | rfl
    · refine ⟨_, _, _, _, cec9Fit2 (by omega) (by omega) hd hx rfl rfl, fun hg hh => ⟨oneBased x 1, x0, x1, ?_, ?_⟩⟩
      · linarith [Finset.sum_nonneg (s := cecOdd dim) (fun j _ => sq_nonneg (cecCS dim (8 / 10 * oneBased x 1) (oneBased x) j))]
      · have r1 := cec9Root_sq (sub_nonneg.mp (neg_nonpos.mp hg))
        have r2 := cec9Root_sq (sub_nonneg.mp (neg_nonpos.mp hh))
        have := cec9Pair hd (h := fun j => cecCS dim (8 / 10 * oneBased x 1) (oneBased x) j ^ 2) (fun j => sq_nonneg _)
        have e := cec9Arch x1
        rw [cecArch] at e
        rw [← e]; linarith
    · refine ⟨_, _, _, _, cec9Fit2 (by omega) (by omega) hd hx rfl rfl, fun hg hh => ⟨oneBased x 1, x0, x1, ?_, ?_⟩⟩
      · linarith [Finset.sum_nonneg (s := cecOdd dim) (fun j _ => cec9H_nonneg (cecCS dim 1 (oneBased x) j))]
      · have r1 := cec9Root_sq (sub_nonneg.mp (neg_nonpos.mp hg))
        have r2 := cec9Root_sq (sub_nonneg.mp (neg_nonpos.mp hh))
        have := cec9Pair hd (h := fun j => if j = 2 ∨ j = 4 then cecCS dim 1 (oneBased x) j ^ 2 else cecH (cecCS dim 1 (oneBased x) j)) (fun j => by
          split
          · exact sq_nonneg _
          · exact cec9H_nonneg _)
        rw [if_pos (.inl rfl), if_pos (.inr rfl)] at this
        have e := cec9Arch x1
        rw [cecArch] at e
        rw [← e]; linarith
  · intro s h0 h1
    have a0 := Real.sqrt_nonneg (max 0 ((s - 1 / 2) * (1 - s)))
    have b0 := Real.sqrt_nonneg (max 0 (1 / 4 * Real.sqrt (1 - s) - 1 / 2 * (1 - s)))
    have a2 := Real.sq_sqrt (le_max_left 0 ((s - 1 / 2) * (1 - s)))
    have b2 := Real.sq_sqrt (le_max_left 0 (1 / 4 * Real.sqrt (1 - s) - 1 / 2 * (1 - s)))
    have a1 : Real.sqrt (max 0 ((s - 1 / 2) * (1 - s))) ≤ 1 := Real.sqrt_le_one.mpr (max_le zero_le_one (by nlinarith))
    have b1 : Real.sqrt (max 0 (1 / 4 * Real.sqrt (1 - s) - 1 / 2 * (1 - s))) ≤ 1 := Real.sqrt_le_one.mpr (max_le zero_le_one (by
      have : Real.sqrt (1 - s) ≤ 1 := Real.sqrt_le_one.mpr (by linarith)
      nlinarith))
    have ra := cec9Root_le ((s - 1 / 2) * (1 - s))
    have rb := cec9Root_le (1 / 4 * Real.sqrt (1 - s) - 1 / 2 * (1 - s))
    have e := cec9Arch h1
    set u := Real.sqrt (max 0 ((s - 1 / 2) * (1 - s)))
    set v := Real.sqrt (max 0 (1 / 4 * Real.sqrt (1 - s) - 1 / 2 * (1 - s)))
    have hm := cec9Run_mem (i := i) (s := s) (d₂ := u) (d₄ := v) (by omega) (by omega) (hl.le.trans hd) h0 h1 a0 a1 b0 b1 (fun _ => by omega)
    rcases hi with rfl | rfl
    · have hy : ∀ j, 2 ≤ j → j ≤ dim → cecCS dim (8 / 10 * s) (oneBased (cecPoint dim (cecRun 6 dim s u v))) j
          = if j = 2 then u else if j = 4 then v else 0 := by
        intro j a b
        have := cec9Run_CS (i := 6) (by omega) s u v a b
        rw [if_neg (by omega : ¬(6 = 7))] at this
        exact this
      have y2 := hy 2 (le_refl _) (by omega)
      have y4 := hy 4 (by omega) hd
      rw [if_pos rfl] at y2
      rw [if_neg (by omega), if_pos rfl] at y4
      have ho : cfObj dim (oneBased (cecPoint dim (cecRun 6 dim s u v))) 6 = [s, cecArch s] := by
        simp only [cfObj]
        rw [cec9Run_one (by omega), Finset.sum_eq_zero (fun j hj => by
            rw [hy j (cec9_mem_odd hj).1 (cec9_mem_odd hj).2, if_neg (cec9_odd_two hj).1, if_neg (cec9_odd_two hj).2]; norm_num), add_zero,
          cec9Pair_eq hd (fun j hj n2 n4 => by
            rw [hy j (cec9_mem_even hj).1 (cec9_mem_even hj).2, if_neg n2, if_neg n4]; norm_num), y2, y4, a2, b2, ← e, add_assoc]
      refine ⟨_, hm, _, ?_, _, ?_, cec9Fit2 (by omega) (by omega) hd hm ho rfl⟩
      · rw [neg_nonpos, cec9Run_one (by omega), y2]; linarith
      · rw [neg_nonpos, cec9Run_one (by omega), y4]; linarith
    · have hy : ∀ j, 2 ≤ j → j ≤ dim → cecCS dim 1 (oneBased (cecPoint dim (cecRun 7 dim s u v))) j
          = if j = 2 then u else if j = 4 then v else 0 := by
        intro j a b
        have := cec9Run_CS (i := 7) (by omega) s u v a b
        rw [if_pos rfl] at this
        exact this
      have y2 := hy 2 (le_refl _) (by omega)
      have y4 := hy 4 (by omega) hd
      rw [if_pos rfl] at y2
      rw [if_neg (by omega), if_pos rfl] at y4
      have ho : cfObj dim (oneBased (cecPoint dim (cecRun 7 dim s u v))) 7 = [s, cecArch s] := by
        simp only [cfObj]
        rw [cec9Run_one (by omega), Finset.sum_eq_zero (fun j hj => by
            rw [hy j (cec9_mem_odd hj).1 (cec9_mem_odd hj).2, if_neg (cec9_odd_two hj).1, if_neg (cec9_odd_two hj).2]; exact cec9H_zero), add_zero,
          cec9Pair_eq hd (fun j hj n2 n4 => by
            rw [if_neg (by omega), hy j (cec9_mem_even hj).1 (cec9_mem_even hj).2, if_neg n2, if_neg n4]; exact cec9H_zero),
          if_pos (.inl rfl), if_pos (.inr rfl), y2, y4, a2, b2, ← e, add_assoc]
      refine ⟨_, hm, _, ?_, _, ?_, cec9Fit2 (by omega) (by omega) hd hm ho rfl⟩
      · rw [neg_nonpos, cec9Run_one (by omega), y2]; linarith
      · rw [neg_nonpos, cec9Run_one (by omega), y4]; linarith

/-- dimension 30: the default -/
example : ∃ x, CecWithin (Cec09.bounds ⟨4, true, 30⟩) x ∧ ∃ g ≤ 0, Cec09.fitness ⟨4, true, 30⟩ x = .ok [some (1 / 2), some (1 - 1 / 2), some g] := by
  have := (C148_cf45 (i := 4) (dim := 30) (.inl rfl) (by norm_num)).2 (1 / 2) (by norm_num) (by norm_num)
  rwa [if_pos (le_refl _)] at this

end Verif.Props
