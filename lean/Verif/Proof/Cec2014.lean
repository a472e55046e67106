import Verif.Model.Cec2014
import Verif.Spec.Cec2014
import Verif.Proof.Cec2013Spec

/-!
Lemmas on the model of `cec2014`: the functions are those of the specification, and have a floor.
-/

set_option autoImplicit false
set_option linter.unusedSimpArgs false

namespace Verif.Props

open Verif Verif.Spec
open Verif.Cec13 (entry acc)
open Verif.Cec14 (Fn Hyb Leaf Part Comp)

/-- the tables and the array are long enough for `sr_func` -/
structure C14Fit (c : Cec14.Ctx) (n o m : Nat) (s r : Bool) (x : List ℝ) : Prop where
  pos : 1 ≤ n
  point : n ≤ x.length
  table : s = true → o + n ≤ c.os.length
  mats : r = true → m + n * n ≤ c.mr.length

/-- the shifted and rotated point, not scaled -/
noncomputable def cec14W (c : Cec14.Ctx) (n o m : Nat) (s r : Bool) (x : List ℝ) : ℕ → ℝ :=
  c13Mul n (if r then fun i j => entry c.mr (m + (i * n + j)) else c13Id) (if s then fun i => entry x i - entry c.os (o + i) else entry x)

theorem cec14_sr {c : Cec14.Ctx} {n o m : Nat} {s r : Bool} {x : List ℝ} (h : C14Fit c n o m s r x) (rate : ℝ) {w : ℕ → ℝ}
    (hw : CecAgree n w (cec14W c n o m s r x)) : ∃ z, Cec14.sr c n o m rate s r x = .ok z ∧ ∀ i < n, z i = rate * w i := by
  have key : ∀ y : ℕ → ℝ, CecAgree n w (c13Mul n (if r then fun i j => entry c.mr (m + (i * n + j)) else c13Id) y) →
      ∃ z, (if r then Cec14.rotate c n m (fun i => y i * rate) else Outcome.ok (fun i => y i * rate)) = .ok z ∧ ∀ i < n, z i = rate * w i := by
    intro y hy
    cases r with
    | false =>
      refine ⟨_, rfl, fun i hi => ?_⟩
      rw [hy i hi]
      simp only [Bool.false_eq_true, if_false]
      rw [cec13_mulId y hi, mul_comm]
    | true =>
      unfold Cec14.rotate
      refine ⟨_, by rw [if_pos rfl, if_pos (h.mats rfl)], fun i hi => ?_⟩
      rw [hy i hi]
      show acc _ _ = _
      unfold c13Mul
      rw [cec13_acc, Finset.mul_sum]
      exact Finset.sum_congr rfl (fun j _ => by simp only [if_true]; ring)
  unfold Cec14.sr
  rw [if_pos h.point]
  cases s with
  | false =>
    simp only [Bool.false_eq_true, if_false, Outcome.bind_ok]
    exact key _ (by unfold cec14W at hw; simpa using hw)
  | true =>
    simp only [if_true, Cec14.shift, if_pos (h.table rfl), Outcome.bind_ok]
    exact key _ (by unfold cec14W at hw; simpa using hw)

/-- a function of the class computes a function of the specification -/
def C14Is (f : Fn) (g : C14Fun) : Prop :=
  ∀ (c : Cec14.Ctx) (n o m : Nat) (s r : Bool) (x : List ℝ) (w : ℕ → ℝ), C14Fit c n o m s r x → CecAgree n w (cec14W c n o m s r x) →
    f c n o m s r x = .ok (g n w)

theorem cec14_isElliptic : C14Is Cec14.ellips c14Elliptic := by
  intro c n o m s r x w h hw
  obtain ⟨z, ez, hz⟩ := cec14_sr h 1 hw
  simp only [Cec14.ellips, ez, Outcome.bind_ok]
  refine congrArg _ (cec13_sum (fun i hi => ?_))
  rw [hz i hi, mul_div_assoc, cec13_six]
  ring

theorem cec14_isCigar : C14Is Cec14.bentCigar c14Cigar := by
  intro c n o m s r x w h hw
  have hp := h.pos
  obtain ⟨z, ez, hz⟩ := cec14_sr h 1 hw
  simp only [Cec14.bentCigar, ez, Outcome.bind_ok]
  refine congrArg _ ?_
  simp only [c14Cigar]
  rw [cec13_erase (by omega), Finset.mul_sum, hz 0 (by omega)]
  refine congrArg₂ _ (by ring) (cec13_sum (fun i hi => ?_))
  rw [hz (i + 1) (by omega)]
  norm_num
  ring

theorem cec14_isDiscus : C14Is Cec14.discus c14Discus := by
  intro c n o m s r x w h hw
  have hp := h.pos
  obtain ⟨z, ez, hz⟩ := cec14_sr h 1 hw
  simp only [Cec14.discus, ez, Outcome.bind_ok]
  refine congrArg _ ?_
  simp only [c14Discus]
  rw [cec13_erase (by omega), hz 0 (by omega)]
  refine congrArg₂ _ (by norm_num; ring) (cec13_sum (fun i hi => ?_))
  rw [hz (i + 1) (by omega)]
  ring

theorem cec14_isRosenbrock : C14Is Cec14.rosenbrock c14Rosenbrock := by
  intro c n o m s r x w h hw
  obtain ⟨z, ez, hz⟩ := cec14_sr h (2.048 / 100) hw
  simp only [Cec14.rosenbrock, ez, Outcome.bind_ok]
  refine congrArg _ (cec13_sum (fun i hi => ?_))
  rw [hz i (by omega), hz (i + 1) (by omega)]
  ring

theorem cec14_isAckley : C14Is Cec14.ackley c14Ackley := by
  intro c n o m s r x w h hw
  obtain ⟨z, ez, hz⟩ := cec14_sr h 1 hw
  simp only [Cec14.ackley, ez, Outcome.bind_ok]
  refine congrArg _ ?_
  rw [cec13_sum (g := fun i => z i * z i) (h := fun i => w i ^ 2) (fun i hi => by rw [hz i hi]; ring),
    cec13_sum (g := fun i => Real.cos (2 * Real.pi * z i)) (h := fun i => Real.cos (2 * Real.pi * w i)) (fun i hi => by rw [hz i hi, one_mul])]
  simp only [c14Ackley]
  simp only [div_eq_inv_mul, mul_one, one_div]
  ring

theorem cec14_isWeierstrass : C14Is Cec14.weierstrass c14Weierstrass := by
  intro c n o m s r x w h hw
  obtain ⟨z, ez, hz⟩ := cec14_sr h (0.5 / 100) hw
  simp only [Cec14.weierstrass, ez, Outcome.bind_ok]
  refine congrArg _ (congrArg₂ _ (cec13_sum (fun i hi => ?_)) (congrArg _ (cec13_sum (fun i hi => rfl))))
  rw [hz i hi, div_mul_eq_mul_div]
  exact cec13_sum (fun i hi => rfl)

theorem cec14_isGriewank : C14Is Cec14.griewank c14Griewank := by
  intro c n o m s r x w h hw
  obtain ⟨z, ez, hz⟩ := cec14_sr h (600 / 100) hw
  simp only [Cec14.griewank, ez, Outcome.bind_ok]
  refine congrArg _ ?_
  simp only [c14Griewank]
  rw [cec13_sum (h := fun i => (600 * w i / 100) ^ 2) (fun i hi => by rw [hz i hi]; ring),
    cec13_prodS (h := fun i => Real.cos (600 * w i / 100 / √((i : ℝ) + 1))) (fun i hi => by rw [hz i hi, add_comm, div_mul_eq_mul_div]), Finset.sum_div]
  ring

theorem cec14_isRastrigin : C14Is Cec14.rastrigin c14Rastrigin := by
  intro c n o m s r x w h hw
  obtain ⟨z, ez, hz⟩ := cec14_sr h (5.12 / 100) hw
  simp only [Cec14.rastrigin, ez, Outcome.bind_ok]
  refine congrArg _ (cec13_sum (fun i hi => ?_))
  rw [hz i hi, div_mul_eq_mul_div, ← pow_two]

theorem cec14_termS (n : Nat) (z : ℝ) : Cec14.schwefelTerm n z = -c13SchwefelG n z := cec13_termS ⟨n, [], []⟩ z

theorem cec14_isSchwefel : C14Is Cec14.schwefel c14Schwefel := by
  intro c n o m s r x w h hw
  obtain ⟨z, ez, hz⟩ := cec14_sr h (1000 / 100) hw
  simp only [Cec14.schwefel, ez, Outcome.bind_ok]
  refine congrArg _ ?_
  simp only [c14Schwefel]
  rw [sub_eq_add_neg, ← Finset.sum_neg_distrib, add_comm]
  refine congrArg _ (cec13_sum (fun i hi => ?_))
  rw [hz i hi, cec14_termS, div_mul_eq_mul_div]

theorem cec14_katS (t : ℝ) : Cec14.kat t = ∑ j ∈ Finset.range 32, |2 ^ (j + 1) * t - (round (2 ^ (j + 1) * t) : ℝ)| / 2 ^ (j + 1) := cec13_katS t

theorem cec14_isKatsuura : C14Is Cec14.katsuura c14Katsuura := by
  intro c n o m s r x w h hw
  obtain ⟨z, ez, hz⟩ := cec14_sr h (5 / 100) hw
  simp only [Cec14.katsuura, ez, Outcome.bind_ok]
  refine congrArg _ ?_
  simp only [c14Katsuura]
  rw [cec13_prodS (fun i hi => by rw [hz i hi, cec14_katS, div_mul_eq_mul_div]), div_div, ← pow_two]
  ring

theorem cec14_isHappyCat : C14Is Cec14.happycat c14HappyCat := by
  intro c n o m s r x w h hw
  obtain ⟨z, ez, hz⟩ := cec14_sr h (5 / 100) hw
  simp only [Cec14.happycat, ez, Outcome.bind_ok]
  refine congrArg _ ?_
  rw [cec13_sum (g := fun i => (z i - 1) * (z i - 1)) (h := fun i => (5 * w i / 100 - 1) ^ 2) (fun i hi => by rw [hz i hi]; ring),
    cec13_sum (g := fun i => z i - 1) (h := fun i => 5 * w i / 100 - 1) (fun i hi => by rw [hz i hi]; ring),
    show (2 * (1 / 8) : ℝ) = 1 / 4 by norm_num]
  rfl

theorem cec14_isHGBat : C14Is Cec14.hgbat c14HGBat := by
  intro c n o m s r x w h hw
  obtain ⟨z, ez, hz⟩ := cec14_sr h (5 / 100) hw
  simp only [Cec14.hgbat, ez, Outcome.bind_ok]
  refine congrArg _ ?_
  rw [cec13_sum (g := fun i => (z i - 1) * (z i - 1)) (h := fun i => (5 * w i / 100 - 1) ^ 2) (fun i hi => by rw [hz i hi]; ring),
    cec13_sum (g := fun i => z i - 1) (h := fun i => 5 * w i / 100 - 1) (fun i hi => by rw [hz i hi]; ring),
    show (2 * (1 / 4) : ℝ) = 0.5 by norm_num, cec13_half, Real.rpow_two, Real.rpow_two]
  rfl

theorem cec14_grS (a b : ℝ) : Cec14.grTerm a b = (100 * (a ^ 2 - b) ^ 2 + (a - 1) ^ 2) ^ 2 / 4000 - Real.cos (100 * (a ^ 2 - b) ^ 2 + (a - 1) ^ 2) + 1 := by
  unfold Cec14.grTerm
  simp only [mul_assoc, ← pow_two]

theorem cec14_isGrieRosen : C14Is Cec14.grieRosen c14GrieRosen := by
  intro c n o m s r x w h hw
  have hp := h.pos
  obtain ⟨z, ez, hz⟩ := cec14_sr h (5 / 100) hw
  simp only [Cec14.grieRosen, ez, Outcome.bind_ok]
  refine congrArg _ ?_
  unfold c14GrieRosen
  simp only [← cec14_grS]
  rw [cec13_cyc (by omega) (fun i j => Cec14.grTerm (5 * w i / 100 + 1) (5 * w j / 100 + 1)), hz 0 (by omega), hz (n - 1) (by omega),
    cec13_sum (h := fun i => Cec14.grTerm (5 * w i / 100 + 1) (5 * w (i + 1) / 100 + 1))
      (fun i hi => by rw [hz i (by omega), hz (i + 1) (by omega), div_mul_eq_mul_div, div_mul_eq_mul_div]), div_mul_eq_mul_div, div_mul_eq_mul_div]

theorem cec14_esS (a b : ℝ) : Cec14.esTerm a b = 0.5 + (Real.sin √(a ^ 2 + b ^ 2) ^ 2 - 0.5) / (1 + 0.001 * (a ^ 2 + b ^ 2)) ^ 2 := by
  unfold Cec14.esTerm
  simp only [← pow_two]

theorem cec14_isScaffer : C14Is Cec14.escaffer6 c14Scaffer := by
  intro c n o m s r x w h hw
  have hp := h.pos
  obtain ⟨z, ez, hz⟩ := cec14_sr h 1 hw
  simp only [one_mul] at hz
  simp only [Cec14.escaffer6, ez, Outcome.bind_ok]
  refine congrArg _ ?_
  unfold c14Scaffer
  simp only [← cec14_esS]
  rw [cec13_cyc (by omega) (fun i j => Cec14.esTerm (w i) (w j)), hz 0 (by omega), hz (n - 1) (by omega),
    cec13_sum (fun i hi => by rw [hz i (by omega), hz (i + 1) (by omega)])]

/-! ## floors -/

/-- the function is not below `-e` per variable, and not above `e` per variable at 0 -/
def C14Floor (g : C14Fun) (e : ℝ) : Prop := ∀ (n : ℕ) (v : ℕ → ℝ), 1 ≤ n → -(e * n) ≤ g n v ∧ (CecZed n v → g n v ≤ e * n)

theorem cec14_floor0 {g : C14Fun} (h : ∀ (n : ℕ) (v : ℕ → ℝ), 1 ≤ n → 0 ≤ g n v ∧ (CecZed n v → g n v = 0)) : C14Floor g 0 := by
  intro n v hn
  obtain ⟨h1, h2⟩ := h n v hn
  exact ⟨by simpa using h1, fun hv => by rw [h2 hv, zero_mul]⟩

theorem cec14_elliptic : C14Floor c14Elliptic 0 := cec14_floor0 (fun n v _ => by
  unfold c14Elliptic
  refine ⟨Finset.sum_nonneg (fun i _ => by positivity), fun hv => Finset.sum_eq_zero (fun i hi => ?_)⟩
  rw [hv i (Finset.mem_range.1 hi)]; ring)

theorem cec14_tailZero {n : ℕ} {v : ℕ → ℝ} (hv : CecZed n v) : ∑ i ∈ (Finset.range n).erase 0, v i ^ 2 = 0 :=
  Finset.sum_eq_zero (fun i hi => by rw [hv i (Finset.mem_range.1 (Finset.mem_of_mem_erase hi))]; ring)

theorem cec14_cigar : C14Floor c14Cigar 0 := cec14_floor0 (fun n v hn => by
  unfold c14Cigar
  refine ⟨by positivity, fun hv => ?_⟩
  rw [hv 0 (by omega), cec14_tailZero hv]; ring)

theorem cec14_discus : C14Floor c14Discus 0 := cec14_floor0 (fun n v hn => by
  unfold c14Discus
  refine ⟨by positivity, fun hv => ?_⟩
  rw [hv 0 (by omega), cec14_tailZero hv]; ring)

theorem cec14_rosenbrock : C14Floor c14Rosenbrock 0 := cec14_floor0 (fun n v hn => by
  unfold c14Rosenbrock
  simp only
  refine ⟨Finset.sum_nonneg (fun i _ => by positivity), fun hv => Finset.sum_eq_zero (fun i hi => ?_)⟩
  have := Finset.mem_range.1 hi
  rw [hv i (by omega), hv (i + 1) (by omega)]; norm_num)

theorem cec14_ackley : C14Floor c14Ackley 0 := cec14_floor0 (fun n v hn => by
  have hn' : (1 : ℝ) ≤ n := by exact_mod_cast hn
  unfold c14Ackley
  constructor
  · have h1 : Real.exp (-0.2 * √(1 / n * ∑ i ∈ Finset.range n, v i ^ 2)) ≤ 1 := by
      rw [Real.exp_le_one_iff]
      have := Real.sqrt_nonneg (1 / n * ∑ i ∈ Finset.range n, v i ^ 2)
      linarith
    have h2 : Real.exp (1 / n * ∑ i ∈ Finset.range n, Real.cos (2 * Real.pi * v i)) ≤ Real.exp 1 := by
      rw [Real.exp_le_exp, one_div, ← div_eq_inv_mul, div_le_one (by linarith)]
      have := Finset.sum_le_card_nsmul (Finset.range n) (fun i => Real.cos (2 * Real.pi * v i)) 1 (fun i _ => Real.cos_le_one _)
      rw [Finset.card_range, nsmul_eq_mul, mul_one] at this
      exact this
    linarith
  · intro hv
    rw [Finset.sum_eq_zero (fun i hi => by rw [hv i (Finset.mem_range.1 hi)]; ring),
      Finset.sum_congr rfl (fun i hi => by rw [hv i (Finset.mem_range.1 hi), mul_zero, Real.cos_zero])]
    rw [Finset.sum_const, Finset.card_range, nsmul_eq_mul, mul_one, one_div, inv_mul_cancel₀ (by linarith)]
    simp)

theorem cec14_weierstrass : C14Floor c14Weierstrass 0 := cec14_floor0 (fun n v hn => by
  have e (t : ℝ) : ∑ k ∈ Finset.range 21, 0.5 ^ k * Real.cos (2 * Real.pi * 3 ^ k * t) = Cec13.wei t := (cec13_acc 21 _).symm
  unfold c14Weierstrass
  simp only [e]
  constructor
  · have := Finset.card_nsmul_le_sum (Finset.range n) (fun i => Cec13.wei (0.5 * v i / 100 + 0.5)) (Cec13.wei 0.5) (fun i _ => cec13_wei _)
    rw [Finset.card_range, nsmul_eq_mul] at this
    linarith
  · intro hv
    rw [Finset.sum_congr rfl (fun i hi => by rw [hv i (Finset.mem_range.1 hi), mul_zero, zero_div, zero_add]), Finset.sum_const, Finset.card_range,
      nsmul_eq_mul, sub_self])

theorem cec14_griewank : C14Floor c14Griewank 0 := cec14_floor0 (fun n v hn => by
  unfold c14Griewank
  simp only
  constructor
  · have h1 : 0 ≤ ∑ i ∈ Finset.range n, (600 * v i / 100) ^ 2 / 4000 := Finset.sum_nonneg (fun i _ => by positivity)
    have h2 : ∏ i ∈ Finset.range n, Real.cos (600 * v i / 100 / √((i : ℝ) + 1)) ≤ 1 := by
      refine le_trans (le_abs_self _) ?_
      rw [Finset.abs_prod]
      exact Finset.prod_le_one (fun i _ => abs_nonneg _) (fun i _ => Real.abs_cos_le_one _)
    linarith
  · intro hv
    rw [Finset.sum_eq_zero (fun i hi => by rw [hv i (Finset.mem_range.1 hi)]; norm_num), Finset.prod_eq_one (fun i hi => by
      rw [hv i (Finset.mem_range.1 hi)]; simp)]
    norm_num)

theorem cec14_rastrigin : C14Floor c14Rastrigin 0 := cec14_floor0 (fun n v hn => by
  unfold c14Rastrigin
  simp only
  refine ⟨Finset.sum_nonneg (fun i _ => by rw [pow_two]; exact cec13_rasTerm _), fun hv => Finset.sum_eq_zero (fun i hi => ?_)⟩
  rw [hv i (Finset.mem_range.1 hi)]; simp)

theorem cec14_schwefel : C14Floor c14Schwefel 0.000002 := by
  intro n v hn
  have hn' : (1 : ℝ) ≤ n := by exact_mod_cast hn
  unfold c14Schwefel
  constructor
  · have := Finset.sum_le_card_nsmul (Finset.range n) (fun i => c13SchwefelG n (1000 * v i / 100 + 420.9687462275036)) (418.9828872724338 + 0.000002)
      (fun i _ => by
        have h := cec13_schwefelTerm ⟨n, [], []⟩ (1000 * v i / 100 + 420.9687462275036)
        rw [cec13_termS] at h
        exact neg_le_neg_iff.1 h)
    rw [Finset.card_range, nsmul_eq_mul] at this
    linarith
  · intro hv
    have := Finset.card_nsmul_le_sum (Finset.range n) (fun i => c13SchwefelG n (1000 * v i / 100 + 420.9687462275036)) (418.9828872724338 - 0.000001)
      (fun i hi => by
        have h := cec13_schwefelTerm_best ⟨n, [], []⟩
        rw [cec13_termS] at h
        rw [hv i (Finset.mem_range.1 hi), mul_zero, zero_div]
        exact neg_le_neg_iff.1 h)
    rw [Finset.card_range, nsmul_eq_mul] at this
    linarith

theorem cec14_katsuura : C14Floor c14Katsuura 0 := cec14_floor0 (fun n v hn => by
  unfold c14Katsuura
  simp only [← cec14_katS]
  constructor
  · have h1 : 1 ≤ ∏ i ∈ Finset.range n, (1 + ((i : ℝ) + 1) * Cec14.kat (5 * v i / 100)) ^ (10 / (n : ℝ) ^ (1.2 : ℝ)) := by
      have H := Finset.prod_le_prod (s := Finset.range n) (f := fun _ => (1 : ℝ))
        (g := fun (i : Nat) => (1 + ((i : ℝ) + 1) * Cec14.kat (5 * v i / 100)) ^ (10 / (n : ℝ) ^ (1.2 : ℝ))) (fun i _ => by norm_num) (fun i _ => by
        refine Real.one_le_rpow ?_ (by positivity)
        have := mul_nonneg (by positivity : 0 ≤ (i : ℝ) + 1) (cec13_kat_nonneg (5 * v i / 100))
        exact le_add_of_nonneg_right this)
      rwa [Finset.prod_const_one] at H
    have h2 : (0 : ℝ) ≤ 10 / (n : ℝ) ^ 2 := by positivity
    have := mul_le_mul_of_nonneg_left h1 h2
    linarith
  · intro hv
    rw [Finset.prod_eq_one (fun i hi => by
      rw [hv i (Finset.mem_range.1 hi), mul_zero, zero_div, show Cec14.kat 0 = 0 from cec13_kat_zero, mul_zero, add_zero, Real.one_rpow])]
    ring)

theorem cec14_catSum (n : ℕ) (hn : 1 ≤ n) (z : ℕ → ℝ) :
    (0.5 * ∑ i ∈ Finset.range n, z i ^ 2 + ∑ i ∈ Finset.range n, z i) / n + 0.5 = 0.5 * (∑ i ∈ Finset.range n, (z i + 1) ^ 2) / n := by
  have hn' : (n : ℝ) ≠ 0 := by
    have : (1 : ℝ) ≤ n := by exact_mod_cast hn
    linarith
  have e : ∑ i ∈ Finset.range n, (z i + 1) ^ 2 = ∑ i ∈ Finset.range n, z i ^ 2 + 2 * ∑ i ∈ Finset.range n, z i + n := by
    rw [Finset.sum_congr rfl (fun i _ => show (z i + 1) ^ 2 = z i ^ 2 + 2 * z i + 1 by ring), Finset.sum_add_distrib, Finset.sum_add_distrib,
      ← Finset.mul_sum, Finset.sum_const, Finset.card_range, nsmul_eq_mul, mul_one]
  rw [e]
  field_simp
  ring

theorem cec14_catZero {n : ℕ} {v : ℕ → ℝ} (hv : CecZed n v) : ∀ i ∈ Finset.range n, 5 * v i / 100 - 1 = -1 := fun i hi => by
  rw [hv i (Finset.mem_range.1 hi)]; norm_num

theorem cec14_catSums {n : ℕ} {v : ℕ → ℝ} (hv : CecZed n v) : ∑ i ∈ Finset.range n, (5 * v i / 100 - 1) ^ 2 = (n : ℝ) ∧
    ∑ i ∈ Finset.range n, (5 * v i / 100 - 1) = -(n : ℝ) ∧ ∑ i ∈ Finset.range n, (5 * v i / 100 - 1 + 1) ^ 2 = 0 := by
  refine ⟨?_, ?_, Finset.sum_eq_zero (fun i hi => by rw [cec14_catZero hv i hi]; norm_num)⟩
  · rw [Finset.sum_congr rfl (fun i hi => show (5 * v i / 100 - 1) ^ 2 = (1 : ℝ) by rw [cec14_catZero hv i hi]; norm_num), Finset.sum_const, Finset.card_range,
      nsmul_eq_mul, mul_one]
  · rw [Finset.sum_congr rfl (cec14_catZero hv), Finset.sum_const, Finset.card_range, nsmul_eq_mul, mul_neg_one]

theorem cec14_happyCat : C14Floor c14HappyCat 0 := cec14_floor0 (fun n v hn => by
  unfold c14HappyCat
  simp only
  rw [add_assoc, cec14_catSum n hn (fun i => 5 * v i / 100 - 1)]
  refine ⟨by positivity, fun hv => ?_⟩
  obtain ⟨e1, -, e3⟩ := cec14_catSums hv
  rw [e1, e3]
  simp)

theorem cec14_hgBat : C14Floor c14HGBat 0 := cec14_floor0 (fun n v hn => by
  unfold c14HGBat
  simp only
  rw [add_assoc, cec14_catSum n hn (fun i => 5 * v i / 100 - 1)]
  refine ⟨by positivity, fun hv => ?_⟩
  obtain ⟨e1, e2, e3⟩ := cec14_catSums hv
  rw [e1, e2, e3]
  simp)

theorem cec14_grieRosen : C14Floor c14GrieRosen 0 := cec14_floor0 (fun n v hn => by
  unfold c14GrieRosen
  simp only [← cec14_grS]
  refine ⟨Finset.sum_nonneg (fun i _ => cec13_grTerm_nonneg _ _), fun hv => Finset.sum_eq_zero (fun i hi => ?_)⟩
  rw [hv i (Finset.mem_range.1 hi), hv ((i + 1) % n) (Nat.mod_lt _ (by omega)), mul_zero, zero_div, zero_add]
  exact cec13_grTerm_one)

theorem cec14_scaffer : C14Floor c14Scaffer 0 := cec14_floor0 (fun n v hn => by
  unfold c14Scaffer
  simp only [← cec14_esS]
  refine ⟨Finset.sum_nonneg (fun i _ => cec13_esTerm_nonneg _ _), fun hv => Finset.sum_eq_zero (fun i hi => ?_)⟩
  rw [hv i (Finset.mem_range.1 hi), hv ((i + 1) % n) (Nat.mod_lt _ (by omega))]
  exact cec13_esTerm_zero)

/-! ## hybrids -/

/-- what a piece of a hybrid computes -/
def C14PieceIs (t : Nat) (p : Nat × Fn) (q : ℕ × C14Fun) : Prop := C14Is p.2 q.2 ∧ p.1 = q.1 * t ∧ 1 ≤ p.1

theorem cec14_pieces {c : Cec14.Ctx} {o m t : Nat} {y : List ℝ} {Y : ℕ → ℝ} (hy : ∀ j < y.length, entry y j = Y j)
    {ps : List (Nat × Fn)} {qs : List (ℕ × C14Fun)} (H : List.Forall₂ (C14PieceIs t) ps qs) (a : Nat)
    (hl : (a + (qs.map (fun q => q.1)).sum) * t ≤ y.length) :
    ∃ vs, Cec14.pieces c o m y (a * t) ps = .ok vs ∧ ∀ s, vs.foldl (fun a b => a + b) s = s + c14Mix (10 * t) Y a qs := by
  induction H generalizing a with
  | nil => exact ⟨[], rfl, fun s => by simp [c14Mix]⟩
  | @cons p q ps qs hpq _ ih =>
    obtain ⟨h1, h2, h3⟩ := hpq
    rw [List.map_cons, List.sum_cons] at hl
    have hl2 : a * t + q.1 * t + (qs.map (fun q => q.1)).sum * t ≤ y.length := by
      rw [← Nat.add_mul, ← Nat.add_mul, Nat.add_assoc]; exact hl
    obtain ⟨vs, evs, hvs⟩ := ih (a + q.1) (by rw [Nat.add_assoc]; exact hl)
    have hfit : C14Fit c p.1 o m false false (y.drop (a * t)) :=
      ⟨h3, by rw [List.length_drop, h2]; omega, by simp, by simp⟩
    have hag : CecAgree p.1 (fun i => Y (a * t + i)) (cec14W c p.1 o m false false (y.drop (a * t))) := by
      intro i hi
      unfold cec14W
      simp only [Bool.false_eq_true, if_false]
      rw [cec13_mulId _ hi]
      rw [← hy (a * t + i) (by rw [h2] at hi; omega)]
      unfold entry
      rw [List.getD_eq_getElem?_getD, List.getD_eq_getElem?_getD, List.getElem?_drop]
    have e := h1 c p.1 o m false false _ _ hfit hag
    refine ⟨q.2 p.1 (fun i => Y (a * t + i)) :: vs, ?_, ?_⟩
    · simp only [Cec14.pieces, e, Outcome.bind_ok]
      rw [h2, ← Nat.add_mul, evs]
      rfl
    · intro s
      rw [List.foldl_cons, hvs]
      simp only [c14Mix]
      rw [show q.1 * (10 * t) / 10 = p.1 by rw [h2, show q.1 * (10 * t) = q.1 * t * 10 by ring]; simp,
        show a * (10 * t) / 10 = a * t by rw [show a * (10 * t) = a * t * 10 by ring]; simp]
      rw [← add_assoc]

end Verif.Props
