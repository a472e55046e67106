import Verif.Model.Cec2009
import Verif.Spec.Cec2009
import Verif.Proof.Analytic
import Mathlib.Tactic.Linarith

/-!
# The loops of cec2009
-/

set_option autoImplicit false

namespace Verif.Props

open Verif Verif.Cec09 Verif.Analytic Verif.Spec

theorem cec9Fold {a : Nat} {step : Nat → Outcome (Nat × ℝ × ℝ)} {k : Nat → Nat} {h p : Nat → ℝ} : ∀ m,
    (∀ j, a ≤ j → j < a + m → step j = .ok (k j, h j, p j)) →
    (List.range' a m).foldlM (fun s j => do
      let (k, h, p) ← step j
      .ok (Sums.add s k h p)) (⟨0, 0, 0, 1, 1, 0, 0, 0⟩ : Sums) =
    .ok ⟨∑ j ∈ Finset.Ico a (a + m) with k j = 1, h j, ∑ j ∈ Finset.Ico a (a + m) with k j = 2, h j,
      ∑ j ∈ Finset.Ico a (a + m) with k j ≠ 1 ∧ k j ≠ 2, h j, ∏ j ∈ Finset.Ico a (a + m) with k j = 1, p j,
      ∏ j ∈ Finset.Ico a (a + m) with k j = 2, p j, (Finset.Ico a (a + m) |>.filter (fun j => k j = 1)).card,
      (Finset.Ico a (a + m) |>.filter (fun j => k j = 2)).card, (Finset.Ico a (a + m) |>.filter (fun j => k j ≠ 1 ∧ k j ≠ 2)).card⟩ := by
  intro m
  induction m with
  | zero => intro _; simp
  | succ m ih =>
    intro hs
    rw [List.range'_1_concat, List.foldlM_append, ih (fun j h1 h2 => hs j h1 (by omega)), Outcome.bind_ok, List.foldlM_cons,
      hs (a + m) (by omega) (by omega)]
    simp only [Outcome.bind_ok, List.foldlM_nil, Outcome.pure_eq]
    congr 1
    simp only [Finset.sum_filter, Finset.prod_filter, Finset.card_filter, ← Nat.add_assoc, Finset.sum_Ico_succ_top (Nat.le_add_right a m),
      Finset.prod_Ico_succ_top (Nat.le_add_right a m), Sums.add]
    by_cases h1 : k (a + m) = 1
    · simp [h1]
    · by_cases h2 : k (a + m) = 2
      · simp [h2]
      · simp [h1, h2]

theorem cec9Loop {a dim : Nat} (ha : a ≤ dim + 1) {step : Nat → Outcome (Nat × ℝ × ℝ)} (k : Nat → Nat) (h p : Nat → ℝ)
    (hs : ∀ j, a ≤ j → j ≤ dim → step j = .ok (k j, h j, p j)) :
    loop a dim step = .ok ⟨∑ j ∈ Finset.Icc a dim with k j = 1, h j, ∑ j ∈ Finset.Icc a dim with k j = 2, h j,
      ∑ j ∈ Finset.Icc a dim with k j ≠ 1 ∧ k j ≠ 2, h j, ∏ j ∈ Finset.Icc a dim with k j = 1, p j,
      ∏ j ∈ Finset.Icc a dim with k j = 2, p j, (Finset.Icc a dim |>.filter (fun j => k j = 1)).card,
      (Finset.Icc a dim |>.filter (fun j => k j = 2)).card, (Finset.Icc a dim |>.filter (fun j => k j ≠ 1 ∧ k j ≠ 2)).card⟩ := by
  have e : Finset.Icc a dim = Finset.Ico a (a + (dim + 1 - a)) := by ext j; simp only [Finset.mem_Icc, Finset.mem_Ico]; omega
  rw [loop, cec9Fold (k := k) (h := h) (p := p) _ (fun j h1 h2 => hs j h1 (by omega)), e]

/-- two groups -/
theorem cec9Loop2 {dim : Nat} (hd : 1 ≤ dim) {step : Nat → Outcome (Nat × ℝ × ℝ)} (h p : Nat → ℝ)
    (hs : ∀ j, 2 ≤ j → j ≤ dim → step j = .ok (par2 j, h j, p j)) :
    ∃ s, loop 2 dim step = .ok s ∧ s.s1 = ∑ j ∈ cecOdd dim, h j ∧ s.s2 = ∑ j ∈ cecEven dim, h j ∧ s.p1 = ∏ j ∈ cecOdd dim, p j ∧
      s.p2 = ∏ j ∈ cecEven dim, p j ∧ s.c1 = (cecOdd dim).card ∧ s.c2 = (cecEven dim).card := by
  have e1 : (Finset.Icc 2 dim).filter (fun j => par2 j = 1) = cecOdd dim := by
    ext j; rw [Finset.mem_filter, Finset.mem_Icc, cecOdd, Finset.mem_filter, Finset.mem_Icc, par2]; split_ifs <;> omega
  have e2 : (Finset.Icc 2 dim).filter (fun j => par2 j = 2) = cecEven dim := by
    ext j; rw [Finset.mem_filter, Finset.mem_Icc, cecEven, Finset.mem_filter, Finset.mem_Icc, par2]; split_ifs <;> omega
  refine ⟨_, cec9Loop (by omega) par2 h p hs, ?_⟩
  rw [e1, e2]
  exact ⟨rfl, rfl, rfl, rfl, rfl, rfl⟩

/-- three groups -/
theorem cec9Loop3 {dim : Nat} (hd : 2 ≤ dim) {step : Nat → Outcome (Nat × ℝ × ℝ)} (h p : Nat → ℝ)
    (hs : ∀ j, 3 ≤ j → j ≤ dim → step j = .ok (par3 j, h j, p j)) :
    ∃ s, loop 3 dim step = .ok s ∧ s.s1 = ∑ j ∈ cecThird 1 dim, h j ∧ s.s2 = ∑ j ∈ cecThird 2 dim, h j ∧ s.s3 = ∑ j ∈ cecThird 0 dim, h j ∧
      s.c1 = (cecThird 1 dim).card ∧ s.c2 = (cecThird 2 dim).card ∧ s.c3 = (cecThird 0 dim).card := by
  have e1 : (Finset.Icc 3 dim).filter (fun j => par3 j = 1) = cecThird 1 dim := by
    ext j; rw [Finset.mem_filter, Finset.mem_Icc, cecThird, Finset.mem_filter, Finset.mem_Icc, par3]; split_ifs <;> omega
  have e2 : (Finset.Icc 3 dim).filter (fun j => par3 j = 2) = cecThird 2 dim := by
    ext j; rw [Finset.mem_filter, Finset.mem_Icc, cecThird, Finset.mem_filter, Finset.mem_Icc, par3]; split_ifs <;> omega
  have e3 : (Finset.Icc 3 dim).filter (fun j => par3 j ≠ 1 ∧ par3 j ≠ 2) = cecThird 0 dim := by
    ext j; rw [Finset.mem_filter, Finset.mem_Icc, cecThird, Finset.mem_filter, Finset.mem_Icc, par3]; split_ifs <;> omega
  refine ⟨_, cec9Loop (by omega) par3 h p hs, ?_⟩
  rw [e1, e2, e3]
  exact ⟨rfl, rfl, rfl, rfl, rfl, rfl⟩

theorem cec9_odd_empty (n : Nat) : cecOdd n = ∅ ↔ n < 3 := by
  constructor
  · intro h
    by_contra hn
    have : 3 ∈ cecOdd n := by rw [cecOdd, Finset.mem_filter, Finset.mem_Icc]; omega
    rw [h] at this; simp at this
  · intro h
    ext j; simp only [cecOdd, Finset.mem_filter, Finset.mem_Icc, Finset.notMem_empty, iff_false]; omega

theorem cec9_even_empty (n : Nat) : cecEven n = ∅ ↔ n < 2 := by
  constructor
  · intro h
    by_contra hn
    have : 2 ∈ cecEven n := by rw [cecEven, Finset.mem_filter, Finset.mem_Icc]; omega
    rw [h] at this; simp at this
  · intro h
    ext j; simp only [cecEven, Finset.mem_filter, Finset.mem_Icc, Finset.notMem_empty, iff_false]; omega

theorem cec9_third_ne {n : Nat} (hn : 5 ≤ n) : ∀ k, k < 3 → (cecThird k n).card ≠ 0 := by
  intro k hk h
  rw [Finset.card_eq_zero] at h
  have : (if k = 0 then 3 else k + 3) ∈ cecThird k n := by
    simp only [cecThird, Finset.mem_filter, Finset.mem_Icc]; split <;> omega
  rw [h] at this; simp at this

theorem cec9Over {b c : ℝ} {s : Finset Nat} (hs : s.card ≠ 0) : over b c s.card = some (b + c / s.card) := by rw [over, if_neg hs]

/-- `x` numbered from 1 -/
def oneBased (x : List ℝ) (j : Nat) : ℝ := x.getD (j - 1) 0

theorem cec9YSin {dim : Nat} {x : List ℝ} (hx : x.length = dim) {j : Nat} (h1 : 1 ≤ j) (h2 : j ≤ dim) :
    ySin dim x j = .ok (cecY dim (oneBased x) j) := by
  rw [ySin, get_at0 (by omega), get_at0 (by omega)]; rfl

theorem cec9YSin2 {dim : Nat} {x : List ℝ} (hx : x.length = dim) (hd : 2 ≤ dim) {j : Nat} (h1 : 1 ≤ j) (h2 : j ≤ dim) :
    ySin2 dim x j = .ok (cecZ dim (oneBased x) j) := by
  rw [ySin2, get_at0 (by omega), get_at0 (by omega), get_at0 (by omega)]; rfl

theorem cec9YPow {dim : Nat} {x : List ℝ} (hx : x.length = dim) {j : Nat} (h1 : 1 ≤ j) (h2 : j ≤ dim) :
    yPow dim x j = .ok (cecP dim (oneBased x) j) := by
  rw [yPow, get_at0 (by omega), get_at0 (by omega), cecP, show (0.5 : ℝ) = 1 / 2 by norm_num]; rfl

end Verif.Props
