import Verif.Props.Cec2009
import Mathlib.Analysis.SpecialFunctions.Trigonometric.Bounds
import Mathlib.Analysis.SpecialFunctions.Trigonometric.Inverse
import Mathlib.Analysis.SpecialFunctions.Complex.Arg

/-!
# cec2009: shape, bounds, formulas, Pareto fronts
-/

set_option autoImplicit false

namespace Verif.Props

open Verif Verif.Cec09 Verif.Analytic Verif.Spec

/-! ## C144 -/

/-- C144: the constructor -/
theorem C144_ctor (i : Nat) (c : Bool) (dim : Nat) : (i < 1 ∨ 10 < i ∨ dim < 1 → Cec09.construct i c dim = .throws .invalidArgument) ∧
    (1 ≤ i → i ≤ 10 → 1 ≤ dim → Cec09.construct i c dim = .ok ⟨i, c, dim⟩) := by
  constructor
  · intro h
    rw [Cec09.construct]
    by_cases h1 : i < 1 ∨ i > 10
    · rw [if_pos h1]
    · rw [if_neg h1, if_pos (by omega)]
  · intro h1 h2 h3
    rw [Cec09.construct, if_neg (by omega), if_neg (by omega)]

theorem cec9Id {i : Nat} (h1 : 1 ≤ i) (h2 : i ≤ 10) : i = 1 ∨ i = 2 ∨ i = 3 ∨ i = 4 ∨ i = 5 ∨ i = 6 ∨ i = 7 ∨ i = 8 ∨ i = 9 ∨ i = 10 := by omega

/-- C144: number of objectives and constraints -/
theorem C144_shape {i dim : Nat} {c : Bool} {u : Udp} (h : Cec09.construct i c dim = .ok u) :
    Cec09.nobj u = .ok (if i ≤ 7 then 2 else 3) ∧ Cec09.nic u = .ok (if c = false then 0 else if i = 6 ∨ i = 7 then 2 else 1) := by
  by_cases hi : 1 ≤ i ∧ i ≤ 10 ∧ 1 ≤ dim
  · rw [(C144_ctor i c dim).2 hi.1 hi.2.1 hi.2.2] at h
    cases h
    rcases cec9Id hi.1 hi.2.1 with rfl | rfl | rfl | rfl | rfl | rfl | rfl | rfl | rfl | rfl <;> cases c <;> exact ⟨rfl, rfl⟩
  · rw [(C144_ctor i c dim).1 (by omega)] at h; cases h

/-- `x` is within the bounds -/
def CecWithin (b : Outcome (List ℝ × List ℝ)) (x : List ℝ) : Prop :=
  ∃ lb ub, b = .ok (lb, ub) ∧ x.length = lb.length ∧ x.length = ub.length ∧
    ∀ (i : Nat) (l a u : ℝ), lb[i]? = some l → x[i]? = some a → ub[i]? = some u → l ≤ a ∧ a ≤ u

/-- how many components have bounds 0 and 1 (of a problem where that is not all), and the bound of the others -/
def cecFree (i : Nat) : Nat := if i ≤ 7 then 1 else 2

theorem cec9Fill {dim k : Nat} {r : ℝ} (hk : k ≤ dim) (x : List ℝ) :
    CecWithin (fill dim k r) x ↔ x.length = dim ∧ (∀ j, 1 ≤ j → j ≤ k → 0 ≤ oneBased x j ∧ oneBased x j ≤ 1) ∧
      ∀ j, k < j → j ≤ dim → |oneBased x j| ≤ r := by
  rw [fill, if_neg (by omega)]
  constructor
  · rintro ⟨lb, ub, hb, h1, h2, h⟩
    cases hb
    have hl : x.length = dim := by simp at h1; omega
    refine ⟨hl, fun j hj hk' => ?_, fun j hj hd => ?_⟩
    · refine h (j - 1) 0 _ 1 ?_ (some_at0 (by omega)) ?_
      · rw [List.getElem?_append_left (by rw [List.length_replicate]; omega), List.getElem?_replicate, if_pos (by omega)]
      · rw [List.getElem?_append_left (by rw [List.length_replicate]; omega), List.getElem?_replicate, if_pos (by omega)]
    · rw [abs_le]
      refine h (j - 1) (-r) _ r ?_ (some_at0 (by omega)) ?_
      · rw [List.getElem?_append_right (by rw [List.length_replicate]; omega), List.getElem?_replicate, List.length_replicate, if_pos (by omega)]
      · rw [List.getElem?_append_right (by rw [List.length_replicate]; omega), List.getElem?_replicate, List.length_replicate, if_pos (by omega)]
  · rintro ⟨hl, h1, h2⟩
    refine ⟨_, _, rfl, by simp; omega, by simp; omega, ?_⟩
    intro i l a u e1 e2 e3
    have hi : i < x.length := (List.getElem?_eq_some_iff.mp e2).1
    have ha : oneBased x (i + 1) = a := at0_some e2
    by_cases hik : i < k
    · rw [List.getElem?_append_left (by simpa using hik), List.getElem?_replicate, if_pos hik] at e1 e3
      cases e1; cases e3
      rw [← ha]; exact h1 (i + 1) (by omega) (by omega)
    · rw [List.getElem?_append_right (by simpa using hik), List.getElem?_replicate, if_pos (by simp; omega)] at e1 e3
      cases e1; cases e3
      rw [← ha]; exact abs_le.mp (h2 (i + 1) (by omega) (by omega))

/-- C144: the box of the unconstrained problems, as in the report -/
theorem C144_boundsUF {i dim : Nat} (hi : 1 ≤ i) (hi' : i ≤ 10) (hd : cecFree i ≤ dim) (x : List ℝ) :
    CecWithin (Cec09.bounds ⟨i, false, dim⟩) x ↔ x.length = dim ∧ (∀ j, 1 ≤ j → j ≤ cecFree i → 0 ≤ oneBased x j ∧ oneBased x j ≤ 1) ∧
      ∀ j, cecFree i < j → j ≤ dim →
        if i = 3 then 0 ≤ oneBased x j ∧ oneBased x j ≤ 1 else |oneBased x j| ≤ if i = 4 ∨ 8 ≤ i then 2 else 1 := by
  rcases cec9Id hi hi' with rfl | rfl | rfl | rfl | rfl | rfl | rfl | rfl | rfl | rfl
  case inr.inr.inl =>
    have := cec9Fill (r := 0) (le_refl dim) x
    rw [show Cec09.bounds ⟨3, false, dim⟩ = fill dim dim 0 from rfl, this]
    have hf : cecFree 3 = 1 := rfl
    rw [hf] at hd ⊢
    simp only [if_true]
    constructor
    · rintro ⟨h1, h2, -⟩
      exact ⟨h1, fun j a b => h2 j a (by omega), fun j a b => h2 j (by omega) b⟩
    · rintro ⟨h1, h2, h3⟩
      refine ⟨h1, fun j a b => ?_, fun j a b => by omega⟩
      by_cases hj : j ≤ 1
      · exact h2 j a hj
      · exact h3 j (by omega) b
  all_goals
    simp only [cecFree, Cec09.bounds] at hd ⊢
    norm_num only at hd ⊢
    simp only [if_true, if_false, or_true, true_or, or_false, ite_true, ite_false, Bool.true_eq_false, if_neg] at hd ⊢
    rw [cec9Fill hd]

/-- C144: the box of the constrained problems -/
theorem C144_boundsCF {i dim : Nat} (hi : 1 ≤ i) (hi' : i ≤ 10) (hd : cecFree i ≤ dim) (x : List ℝ) :
    CecWithin (Cec09.bounds ⟨i, true, dim⟩) x ↔ x.length = dim ∧ (∀ j, 1 ≤ j → j ≤ cecFree i → 0 ≤ oneBased x j ∧ oneBased x j ≤ 1) ∧
      ∀ j, cecFree i < j → j ≤ dim →
        if i = 1 then 0 ≤ oneBased x j ∧ oneBased x j ≤ 1 else |oneBased x j| ≤ if i = 2 then 1 else if i = 8 then 4 else 2 := by
  rcases cec9Id hi hi' with rfl | rfl | rfl | rfl | rfl | rfl | rfl | rfl | rfl | rfl
  case inl =>
    have := cec9Fill (r := 0) (le_refl dim) x
    rw [show Cec09.bounds ⟨1, true, dim⟩ = fill dim dim 0 from rfl, this]
    have hf : cecFree 1 = 1 := rfl
    rw [hf] at hd ⊢
    simp only [if_true]
    constructor
    · rintro ⟨h1, h2, -⟩
      exact ⟨h1, fun j a b => h2 j a (by omega), fun j a b => h2 j (by omega) b⟩
    · rintro ⟨h1, h2, h3⟩
      refine ⟨h1, fun j a b => ?_, fun j a b => by omega⟩
      by_cases hj : j ≤ 1
      · exact h2 j a hj
      · exact h3 j (by omega) b
  all_goals
    simp only [cecFree, Cec09.bounds] at hd ⊢
    norm_num only at hd ⊢
    simp only [if_true, if_false, or_true, true_or, or_false, ite_true, ite_false, Bool.true_eq_false, if_neg] at hd ⊢
    rw [cec9Fill hd]

/-- C144: the documentation says that all problems are scalable, but for UF8, UF9, UF10, CF8, CF9, CF10 with dimension 1, which the constructor accepts,
`get_bounds` writes past the end of its vectors -/
theorem C144_bounds_ub {i : Nat} (hi : 8 ≤ i) (hi' : i ≤ 10) (c : Bool) :
    Cec09.construct i c 1 = .ok ⟨i, c, 1⟩ ∧ Cec09.bounds ⟨i, c, 1⟩ = .ub := by
  refine ⟨(C144_ctor i c 1).2 (by omega) hi' (le_refl _), ?_⟩
  have : i = 8 ∨ i = 9 ∨ i = 10 := by omega
  rcases this with rfl | rfl | rfl <;> cases c <;> rfl

/-! ## C145 -/

/-- C145: the objectives of UF1-UF10 are those of the report -/
theorem C145_uf {i dim : Nat} (hi : 1 ≤ i) (hi' : i ≤ 10) (hd : (if i ≤ 7 then 3 else 5) ≤ dim) {x : List ℝ}
    (hb : CecWithin (Cec09.bounds ⟨i, false, dim⟩) x) : Cec09.fitness ⟨i, false, dim⟩ x = .ok ((ufObj dim (oneBased x) i).map some) := by
  have hx : x.length = dim := ((C144_boundsUF hi hi' (by
    refine le_trans ?_ hd
    rw [cecFree]; split_ifs <;> omega) x).mp hb).1
  rcases cec9Id hi hi' with rfl | rfl | rfl | rfl | rfl | rfl | rfl | rfl | rfl | rfl
  · exact cec9UF1 hx hd
  · exact cec9UF2 hx hd
  · exact cec9UF3 hx hd
  · exact cec9UF4 hx hd
  · exact cec9UF5 hx hd
  · exact cec9UF6 hx hd
  · exact cec9UF7 hx hd
  · exact cec9UF8 hx hd
  · exact cec9UF9 hx hd
  · exact cec9UF10 hx hd

theorem cec9Over0 {b c : ℝ} {n : Nat} (h : n = 0) : over b c n = none := by rw [over, if_pos h]

/-- C145: the documentation says that all problems are scalable, but for UF1-UF7 with dimension 1 or 2 the first objective is not a number: there is no
odd index to take the mean over -/
theorem C145_small2 {i dim : Nat} (hi : 1 ≤ i) (hi' : i ≤ 7) (h1 : 1 ≤ dim) (h2 : dim ≤ 2) {x : List ℝ} (hx : x.length = dim) :
    ∃ f, Cec09.fitness ⟨i, false, dim⟩ x = .ok [none, f] := by
  have hc : (cecOdd dim).card = 0 := by rw [Finset.card_eq_zero, cec9_odd_empty]; omega
  have key : ∀ step : Nat → Outcome (Nat × ℝ × ℝ), (∀ j, 2 ≤ j → j ≤ dim → ∃ h p, step j = .ok (par2 j, h, p)) →
      ∃ s, loop 2 dim step = .ok s ∧ s.c1 = 0 := by
    intro step h
    choose! a b hab using h
    obtain ⟨s, hs, -, -, -, -, c1, -⟩ := cec9Loop2 h1 a b hab
    exact ⟨s, hs, by rw [c1, hc]⟩
  have hid : i = 1 ∨ i = 2 ∨ i = 3 ∨ i = 4 ∨ i = 5 ∨ i = 6 ∨ i = 7 := by omega
  have h0 := cec9Get0 hx h1
  rcases hid with rfl | rfl | rfl | rfl | rfl | rfl | rfl
  case inr.inl =>
    obtain ⟨s, hs, hc⟩ := key (fun j => do
      let xj ← Outcome.get x (j - 1)
      let x0 ← Outcome.get x 0
      let w := 0.3 * x0 * (x0 * Real.cos (24 * Real.pi * x0 + 4 * j * Real.pi / dim) + 2)
      if j % 2 = 0 then
        let y := xj - w * Real.sin (angle dim x0 j)
        .ok (2, y * y, 1)
      else
        let y := xj - w * Real.cos (angle dim x0 j)
        .ok (1, y * y, 1)) (fun j a b => by
          rw [get_at0 (by omega), h0]
          simp only [Outcome.bind_ok]
          by_cases hj : j % 2 = 0
          · rw [if_pos hj, par2, if_pos hj]; exact ⟨_, _, rfl⟩
          · rw [if_neg hj, par2, if_neg hj]; exact ⟨_, _, rfl⟩)
    refine ⟨over (1 - Real.sqrt (oneBased x 1)) (2 * s.s2) s.c2, ?_⟩
    show UF2 dim x = _
    rw [UF2, hs, h0]
    simp only [Outcome.bind_ok]
    rw [cec9Over0 hc]
  case inr.inr.inl =>
    obtain ⟨s, hs, hc⟩ := key (fun j => do
      let y ← yPow dim x j
      .ok (par2 j, y * y, pCos y j)) (fun j a b => by rw [cec9YPow hx (by omega) b]; exact ⟨_, _, rfl⟩)
    show ∃ f, UF3 dim x = .ok [none, f]
    rw [UF3, hs, h0]
    simp only [Outcome.bind_ok]
    by_cases hd : dim = 2
    · rw [if_pos hd]; exact ⟨none, rfl⟩
    · rw [if_neg hd, cec9Over0 hc]; exact ⟨_, rfl⟩
  · obtain ⟨s, hs, hc⟩ := key (fun j => do
      let y ← ySin dim x j
      .ok (par2 j, y * y, 1)) (fun j a b => by rw [cec9YSin hx (by omega) b]; exact ⟨_, _, rfl⟩)
    show ∃ f, UF1 dim x = .ok [none, f]
    rw [UF1, hs, h0]
    simp only [Outcome.bind_ok]
    rw [cec9Over0 hc]; exact ⟨_, rfl⟩
  · obtain ⟨s, hs, hc⟩ := key (fun j => do
      let y ← ySin dim x j
      .ok (par2 j, |y| / (1 + Real.exp (2 * |y|)), 1)) (fun j a b => by rw [cec9YSin hx (by omega) b]; exact ⟨_, _, rfl⟩)
    show ∃ f, UF4 dim x = .ok [none, f]
    rw [UF4, hs, h0]
    simp only [Outcome.bind_ok]
    rw [cec9Over0 hc]; exact ⟨_, rfl⟩
  · obtain ⟨s, hs, hc⟩ := key (fun j => do
      let y ← ySin dim x j
      .ok (par2 j, hRast y, 1)) (fun j a b => by rw [cec9YSin hx (by omega) b]; exact ⟨_, _, rfl⟩)
    show ∃ f, UF5 dim x = .ok [none, f]
    rw [UF5, hs, h0]
    simp only [Outcome.bind_ok]
    rw [cec9Over0 hc]; exact ⟨_, rfl⟩
  · obtain ⟨s, hs, hc⟩ := key (fun j => do
      let y ← ySin dim x j
      .ok (par2 j, y * y, pCos y j)) (fun j a b => by rw [cec9YSin hx (by omega) b]; exact ⟨_, _, rfl⟩)
    show ∃ f, UF6 dim x = .ok [none, f]
    rw [UF6, hs, h0]
    simp only [Outcome.bind_ok]
    rw [cec9Over0 hc]; exact ⟨_, rfl⟩
  · obtain ⟨s, hs, hc⟩ := key (fun j => do
      let y ← ySin dim x j
      .ok (par2 j, y * y, 1)) (fun j a b => by rw [cec9YSin hx (by omega) b]; exact ⟨_, _, rfl⟩)
    show ∃ f, UF7 dim x = .ok [none, f]
    rw [UF7, hs, h0]
    simp only [Outcome.bind_ok]
    rw [cec9Over0 hc]; exact ⟨_, rfl⟩

/-- C145: the same for UF8, UF9, UF10 and dimensions 2, 3, 4: the second objective is not a number -/
theorem C145_small3 {i dim : Nat} (hi : 8 ≤ i) (hi' : i ≤ 10) (h1 : 2 ≤ dim) (h2 : dim ≤ 4) {x : List ℝ} (hx : x.length = dim) :
    ∃ f g, Cec09.fitness ⟨i, false, dim⟩ x = .ok [f, none, g] := by
  have hc : (cecThird 2 dim).card = 0 := by
    rw [Finset.card_eq_zero]; ext j
    rw [cecThird, Finset.mem_filter, Finset.mem_Icc]
    simp only [Finset.notMem_empty, iff_false]; omega
  have key : ∀ step : Nat → Outcome (Nat × ℝ × ℝ), (∀ j, 3 ≤ j → j ≤ dim → ∃ h p, step j = .ok (par3 j, h, p)) →
      ∃ s, loop 3 dim step = .ok s ∧ s.c2 = 0 := by
    intro step h
    choose! a b hab using h
    obtain ⟨s, hs, -, -, -, -, c2, -⟩ := cec9Loop3 h1 a b hab
    exact ⟨s, hs, by rw [c2, hc]⟩
  have hid : i = 8 ∨ i = 9 ∨ i = 10 := by omega
  have h0 := cec9Get0 hx (by omega)
  have h1' := cec9Get1 hx h1
  rcases hid with rfl | rfl | rfl
  · obtain ⟨s, hs, hc⟩ := key (fun j => do
      let y ← ySin2 dim x j
      .ok (par3 j, y * y, 1)) (fun j a b => by rw [cec9YSin2 hx h1 (by omega) b]; exact ⟨_, _, rfl⟩)
    show ∃ f g, UF8 dim x = .ok [f, none, g]
    rw [UF8, hs, h0, h1']
    simp only [Outcome.bind_ok, sphere]
    rw [cec9Over0 hc]; exact ⟨_, _, rfl⟩
  · obtain ⟨s, hs, hc⟩ := key (fun j => do
      let y ← ySin2 dim x j
      .ok (par3 j, y * y, 1)) (fun j a b => by rw [cec9YSin2 hx h1 (by omega) b]; exact ⟨_, _, rfl⟩)
    show ∃ f g, UF9 dim x = .ok [f, none, g]
    rw [UF9, hs, h0, h1']
    simp only [Outcome.bind_ok]
    rw [cec9Over0 hc]; exact ⟨_, _, rfl⟩
  · obtain ⟨s, hs, hc⟩ := key (fun j => do
      let y ← ySin2 dim x j
      .ok (par3 j, hRast2 y, 1)) (fun j a b => by rw [cec9YSin2 hx h1 (by omega) b]; exact ⟨_, _, rfl⟩)
    show ∃ f g, UF10 dim x = .ok [f, none, g]
    rw [UF10, hs, h0, h1']
    simp only [Outcome.bind_ok, sphere]
    rw [cec9Over0 hc]; exact ⟨_, _, rfl⟩

/-! ## C146 -/

theorem cec9Mean_nonneg (s : Finset Nat) {h : Nat → ℝ} (hh : ∀ j ∈ s, 0 ≤ h j) : 0 ≤ mean2 s h :=
  mul_nonneg (by positivity) (Finset.sum_nonneg hh)

theorem cec9Mean_zero (s : Finset Nat) {h : Nat → ℝ} (hh : ∀ j ∈ s, h j = 0) : mean2 s h = 0 := by
  rw [mean2, Finset.sum_eq_zero hh, mul_zero]

theorem cec9Multi_nonneg (s : Finset Nat) (y : Nat → ℝ) : 0 ≤ multi2 s y := by
  refine mul_nonneg (by positivity) ?_
  have h1 : 0 ≤ ∑ j ∈ s, y j ^ 2 := Finset.sum_nonneg (fun j _ => sq_nonneg _)
  have h2 : ∏ j ∈ s, Real.cos (20 * y j * Real.pi / Real.sqrt j) ≤ 1 := by
    refine (le_abs_self _).trans ?_
    rw [Finset.abs_prod]
    exact Finset.prod_le_one (fun j _ => abs_nonneg _) (fun j _ => Real.abs_cos_le_one _)
  linarith

theorem cec9Multi_zero (s : Finset Nat) {y : Nat → ℝ} (hh : ∀ j ∈ s, y j = 0) : multi2 s y = 0 := by
  rw [multi2, Finset.sum_eq_zero (fun j hj => by rw [hh j hj]; norm_num), Finset.prod_eq_one (fun j hj => by rw [hh j hj]; norm_num)]
  norm_num

theorem cec9H_nonneg (y : ℝ) : 0 ≤ cecH y := by
  rw [cecH]; nlinarith [sq_nonneg y, Real.cos_le_one (4 * Real.pi * y)]

theorem cec9H_zero : cecH 0 = 0 := by simp [cecH]

/-- the vector with the components `g 1`, `g 2`, ... -/
def cecPoint (dim : Nat) (g : Nat → ℝ) : List ℝ := (List.range dim).map (fun i => g (i + 1))

theorem cec9Point_length (dim : Nat) (g : Nat → ℝ) : (cecPoint dim g).length = dim := by simp [cecPoint]

theorem cec9Point {dim : Nat} (g : Nat → ℝ) {j : Nat} (h1 : 1 ≤ j) (h2 : j ≤ dim) : oneBased (cecPoint dim g) j = g j := by
  refine at0_some ?_
  rw [cecPoint, List.getElem?_map, List.getElem?_range (by omega)]
  simp only [Option.map_some]
  congr 2; omega

theorem cec9_mem_odd {n j : Nat} (h : j ∈ cecOdd n) : 2 ≤ j ∧ j ≤ n := by
  rw [cecOdd, Finset.mem_filter, Finset.mem_Icc] at h; omega

theorem cec9_mem_even {n j : Nat} (h : j ∈ cecEven n) : 2 ≤ j ∧ j ≤ n := by
  rw [cecEven, Finset.mem_filter, Finset.mem_Icc] at h; omega

theorem cec9_mem_third {k n j : Nat} (h : j ∈ cecThird k n) : 3 ≤ j ∧ j ≤ n := by
  rw [cecThird, Finset.mem_filter, Finset.mem_Icc] at h; omega

end Verif.Props
