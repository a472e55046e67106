import Verif.Model.Zdt
import Verif.Proof.Analytic
import Mathlib.Analysis.SpecialFunctions.Sqrt
import Mathlib.Tactic.LinearCombination
import Mathlib.Tactic.Positivity

/-!
# Closed forms of the ZDT problems
-/

set_option autoImplicit false

namespace Verif.Zdt

open Verif Verif.Analytic Finset

/-- the sum of all components but the first -/
noncomputable def tailSum (x : List ℝ) : ℝ := ∑ i ∈ range (x.length - 1), at0 x (i + 1)

/-- the sum of `v^2 - 10 cos(4 pi v) + 10` over all components but the first -/
noncomputable def tailSum4 (x : List ℝ) : ℝ :=
  ∑ i ∈ range (x.length - 1), (at0 x (i + 1) * at0 x (i + 1) + 10 * (1 - Real.cos (4 * Real.pi * at0 x (i + 1))))

theorem tail_ok (x : List ℝ) : sumLoop (x.length - 1) (tailTerm x) 0 = .ok (tailSum x) := by
  rw [sumLoop_ok (g := fun i => at0 x (i + 1))]
  · simp [tailSum]
  · intro i hi
    rw [tailTerm, get_at0 (by omega)]

theorem tail4_ok (x : List ℝ) (s : ℝ) :
    sumLoop (x.length - 1) (term4 x) s = .ok (s + (tailSum4 x - 10 * ((x.length - 1 : Nat) : ℝ))) := by
  rw [sumLoop_ok (g := fun i => at0 x (i + 1) * at0 x (i + 1) - 10 * Real.cos (4 * Real.pi * at0 x (i + 1)))]
  · congr 2
    rw [tailSum4, eq_sub_iff_add_eq]
    have : (10 : ℝ) * ((x.length - 1 : Nat) : ℝ) = ∑ i ∈ range (x.length - 1), (10 : ℝ) := by simp [mul_comm]
    rw [this, ← sum_add_distrib]
    exact sum_congr rfl (fun i _ => by ring)
  · intro i hi
    rw [term4, get_at0 (by omega)]; rfl

/-- the distance of ZDT1, 2 and 3 -/
noncomputable def P123 (x : List ℝ) : ℝ := 9 * tailSum x / ((x.length - 1 : Nat) : ℝ)

/-- the distance of ZDT6 -/
noncomputable def P6 (x : List ℝ) : ℝ := 9 * (tailSum x / ((x.length - 1 : Nat) : ℝ)) ^ (0.25 : ℝ)

theorem pd123_ok (x : List ℝ) : pd123 x = .ok (P123 x) := by
  rw [pd123, tail_ok]; simp [P123]

theorem pd6_ok (x : List ℝ) : pd6 x = .ok (P6 x) := by
  rw [pd6, tail_ok]; simp [P6]

theorem pd4_ok (x : List ℝ) : pd4 x = .ok (tailSum4 x) := by
  rw [pd4, tail4_ok]; simp

theorem g123_ok (x : List ℝ) : g123 x = .ok (1 + P123 x) := by
  rw [g123, tail_ok]; simp [P123]

theorem fit1_ok {x : List ℝ} (h : 0 < x.length) :
    fit1 x = .ok [at0 x 0, (1 + P123 x) * (1 - Real.sqrt (at0 x 0 / (1 + P123 x)))] := by
  rw [fit1, get_at0 h, g123_ok]; rfl

theorem fit2_ok {x : List ℝ} (h : 0 < x.length) :
    fit2 x = .ok [at0 x 0, (1 + P123 x) * (1 - at0 x 0 / (1 + P123 x) * (at0 x 0 / (1 + P123 x)))] := by
  rw [fit2, get_at0 h, g123_ok]; rfl

theorem fit3_ok {x : List ℝ} (h : 0 < x.length) :
    fit3 x = .ok [at0 x 0, (1 + P123 x) * (1 - Real.sqrt (at0 x 0 / (1 + P123 x)) -
      at0 x 0 / (1 + P123 x) * Real.sin (10 * Real.pi * at0 x 0))] := by
  rw [fit3, get_at0 h, g123_ok]; rfl

theorem fit4_ok {x : List ℝ} (h : 0 < x.length) :
    fit4 x = .ok [at0 x 0, (1 + tailSum4 x) * (1 - Real.sqrt (at0 x 0 / (1 + tailSum4 x)))] := by
  rw [fit4, get_at0 h, tail4_ok]
  simp only [Outcome.bind_ok]
  rw [show 1 + 10 * ((x.length - 1 : Nat) : ℝ) + (tailSum4 x - 10 * ((x.length - 1 : Nat) : ℝ)) = 1 + tailSum4 x by ring]

/-- the first objective of ZDT6 -/
noncomputable def F6 (x : List ℝ) : ℝ := 1 - Real.exp (-4 * at0 x 0) * Real.sin (6 * Real.pi * at0 x 0) ^ 6

theorem fit6_ok {x : List ℝ} (h : 0 < x.length) :
    fit6 x = .ok [F6 x, (1 + P6 x) * (1 - F6 x / (1 + P6 x) * (F6 x / (1 + P6 x)))] := by
  rw [fit6, get_at0 h, tail_ok]; rfl

/-- the number of ones among the elements `k` to `k + n - 1` -/
noncomputable def cnt (x : List ℝ) (k n : Nat) : Nat := ∑ j ∈ range n, if at0 x (k + j) = 1 then 1 else 0

theorem ones_ok {x : List ℝ} {k n : Nat} (h : k + n ≤ x.length) : ones x k n = .ok (cnt x k n) := by
  induction n with
  | zero => simp [ones, cnt]
  | succ n ih =>
    have := ih (by omega)
    unfold ones at this ⊢
    rw [List.range_succ, List.foldlM_append, this]
    simp only [Outcome.bind_ok, List.foldlM_cons, List.foldlM_nil, get_at0 (show k + n < x.length by omega), Outcome.pure_eq, cnt,
      sum_range_succ]
    split <;> simp

theorem cnt_le (x : List ℝ) (k n : Nat) : cnt x k n ≤ n := by
  have : cnt x k n ≤ ∑ j ∈ range n, 1 := sum_le_sum (fun j _ => by split <;> omega)
  simpa using this

theorem cnt_full {x : List ℝ} {k n : Nat} : cnt x k n = n ↔ ∀ j, j < n → at0 x (k + j) = 1 := by
  induction n with
  | zero => simp [cnt]
  | succ n ih =>
    have h1 : cnt x k (n + 1) = cnt x k n + if at0 x (k + n) = 1 then 1 else 0 := by rw [cnt, cnt, sum_range_succ]
    have h2 := cnt_le x k n
    constructor
    · intro h j hj
      by_cases hn : at0 x (k + n) = 1
      · rw [if_pos hn] at h1
        rcases Nat.lt_succ_iff_lt_or_eq.mp hj with h' | rfl
        · exact ih.mp (by omega) j h'
        · exact hn
      · rw [if_neg hn] at h1; omega
    · intro h
      rw [h1, if_pos (h n (by omega)), ih.mpr (fun j hj => h j (by omega))]

theorem cnt_take (x : List ℝ) (n : Nat) (h : n ≤ x.length) : cnt x 0 n = (x.take n).count 1 := by
  induction n with
  | zero => simp [cnt]
  | succ n ih =>
    rw [cnt, sum_range_succ, ← cnt, ih (by omega), List.take_succ, List.count_append, some_at0 (show n < x.length by omega), zero_add]
    simp [List.count_singleton]

/-- the sum over the strings of their value minus 1 -/
noncomputable def P5 (x : List ℝ) : ℝ := ∑ i ∈ range ((x.length - 30) / 5), ((blockValue (cnt x (30 + 5 * i) 5) : ℝ) - 1)

theorem blocks_ok (x : List ℝ) (h : 30 ≤ x.length) :
    sumLoop ((x.length - 30) / 5) (blockTerm x) 0 = .ok (P5 x + (((x.length - 30) / 5 : Nat) : ℝ)) := by
  rw [sumLoop_ok (g := fun i => (blockValue (cnt x (30 + 5 * i) 5) : ℝ))]
  · congr 1
    rw [P5, sum_sub_distrib]; simp
  · intro i hi
    rw [blockTerm, ones_ok (by omega)]; rfl

theorem blockValue_pos (u : Nat) : 1 ≤ blockValue u := by unfold blockValue; split <;> omega

theorem blockValue_one {u : Nat} (h : u ≤ 5) : blockValue u = 1 ↔ u = 5 := by unfold blockValue; split <;> omega

theorem P5_nonneg (x : List ℝ) : 0 ≤ P5 x := by
  refine sum_nonneg (fun i _ => ?_)
  have : (1 : ℝ) ≤ (blockValue (cnt x (30 + 5 * i) 5) : ℝ) := by exact_mod_cast blockValue_pos _
  linarith

theorem P5_zero (x : List ℝ) : P5 x = 0 ↔ ∀ i, i < (x.length - 30) / 5 → ∀ j, j < 5 → at0 x (30 + 5 * i + j) = 1 := by
  rw [P5, sum_eq_zero_iff_of_nonneg]
  · constructor
    · intro h i hi
      have := h i (mem_range.mpr hi)
      have h2 : blockValue (cnt x (30 + 5 * i) 5) = 1 := by
        have : (blockValue (cnt x (30 + 5 * i) 5) : ℝ) = 1 := by linarith
        exact_mod_cast this
      exact cnt_full.mp ((blockValue_one (cnt_le _ _ _)).mp h2)
    · intro h i hi
      rw [(blockValue_one (cnt_le _ _ _)).mpr (cnt_full.mpr (h i (mem_range.mp hi)))]; simp
  · intro i _
    have : (1 : ℝ) ≤ (blockValue (cnt x (30 + 5 * i) 5) : ℝ) := by exact_mod_cast blockValue_pos _
    linarith

/-- the first objective of ZDT5, of the rounded vector -/
noncomputable def F5 (x : List ℝ) : ℝ := 1 + (cnt x 0 30 : ℝ)

theorem F5_pos (x : List ℝ) : 0 < F5 x := by
  have : (0 : ℝ) ≤ (cnt x 0 30 : ℝ) := Nat.cast_nonneg _
  unfold F5; linarith

theorem fit5_ok {x : List ℝ} (h : 30 ≤ x.length) :
    fit5 x = .ok [F5 (x.map roundR), (P5 (x.map roundR) + (((x.length - 30) / 5 : Nat) : ℝ)) * (1 / F5 (x.map roundR))] := by
  have hl : (x.map roundR).length = x.length := by simp
  have := blocks_ok (x.map roundR) (by omega)
  rw [hl] at this
  rw [fit5, if_neg (by omega)]
  simp only [Nat.add_sub_cancel, ones_ok (show 0 + 30 ≤ (x.map roundR).length by omega), this, Outcome.bind_ok]
  rfl

theorem pd5_ok {x : List ℝ} (h : 30 ≤ x.length) : pd5 x = .ok (P5 (x.map floorR)) := by
  have hl : (x.map floorR).length = x.length := by simp
  have := blocks_ok (x.map floorR) (by omega)
  rw [hl] at this
  rw [pd5, if_neg (by omega)]
  simp only [Nat.add_sub_cancel]
  rw [this]
  simp only [Outcome.bind_ok]
  congr 1
  push_cast; ring

theorem at0_map {f : ℝ → ℝ} {x : List ℝ} {i : Nat} (h : i < x.length) : at0 (x.map f) i = f (at0 x i) := by
  simp [at0, List.getD_eq_getElem?_getD, List.getElem?_eq_getElem h]

theorem roundR_zero : roundR 0 = 0 := by
  have : ⌊(2 : ℝ)⁻¹⌋ = 0 := by rw [Int.floor_eq_iff]; norm_num
  simp [roundR, this]

theorem roundR_one : roundR 1 = 1 := by
  have : ⌊(1 : ℝ) + 1 / 2⌋ = 1 := by rw [Int.floor_eq_iff]; norm_num
  rw [roundR, if_pos (by norm_num), this]; norm_num

theorem floorR_one_iff {a : ℝ} (h : a ≤ 1) : floorR a = 1 ↔ a = 1 := by
  constructor
  · intro e
    have : ⌊a⌋ = 1 := by
      have : ((⌊a⌋ : Int) : ℝ) = ((1 : Int) : ℝ) := by simpa [floorR] using e
      exact_mod_cast this
    have := Int.floor_eq_iff.mp this
    have h1 : (1 : ℝ) ≤ a := by exact_mod_cast this.1
    linarith
  · rintro rfl; simp [floorR]

end Verif.Zdt
