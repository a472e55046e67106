import Verif.Proof.Cec2013
import Verif.Spec.Cec2013

/-!
The model of `cec2013` computes the functions of the specification.
-/

set_option autoImplicit false
set_option linter.unusedSimpArgs false

namespace Verif.Props

open Verif Verif.Cec13 Verif.Spec

/-- the vectors have the same entries below `n` -/
def CecAgree (n : Nat) (v w : Nat → ℝ) : Prop := ∀ i < n, v i = w i

theorem cec13_refl (n : Nat) (v : Nat → ℝ) : CecAgree n v v := fun _ _ => rfl

/-- the matrix at offset `m`, or the identity -/
def cec13Mat (c : Ctx) (flag : Bool) (m : Nat) : ℕ → ℕ → ℝ := if flag then fun i j => entry c.mr (m + (i * c.nx + j)) else c13Id

theorem cec13_mulId {n : Nat} (v : ℕ → ℝ) {i : Nat} (hi : i < n) : c13Mul n c13Id v i = v i := by
  unfold c13Mul c13Id
  rw [Finset.sum_eq_single i]
  · simp
  · intro b _ hb
    rw [if_neg (Ne.symm hb), zero_mul]
  · intro h
    exact absurd (Finset.mem_range.2 hi) h

theorem cec13_mulCongr {n : Nat} {M : ℕ → ℕ → ℝ} {v w : ℕ → ℝ} (h : CecAgree n v w) (i : Nat) : c13Mul n M v i = c13Mul n M w i :=
  Finset.sum_congr rfl (fun j hj => by rw [h j (Finset.mem_range.1 hj)])

theorem cec13_turnS {c : Ctx} {m : Nat} (flag : Bool) {v w : ℕ → ℝ} (h : m + c.nx * c.nx ≤ c.mr.length) (hv : CecAgree c.nx v w) :
    ∃ z, turn c flag m v = .ok z ∧ CecAgree c.nx z (c13Mul c.nx (cec13Mat c flag m) w) := by
  unfold turn rotate cec13Mat
  cases flag with
  | false => exact ⟨v, by simp, fun i hi => by simp only [Bool.false_eq_true, if_false]; rw [cec13_mulId w hi, hv i hi]⟩
  | true =>
    refine ⟨_, by rw [if_pos rfl, if_pos h], ?_⟩
    intro i _
    rw [if_pos rfl, ← cec13_mulCongr hv]
    show acc _ _ = _
    rw [cec13_acc]
    exact Finset.sum_congr rfl (fun j _ => mul_comm _ _)

theorem cec13_shiftS {c : Ctx} {o m : Nat} {x : List ℝ} (h : CecFit c o m x) :
    shift c o x = .ok (fun i => entry x i - entry c.os (o + i)) := if_pos ⟨h.point, h.table⟩

theorem cec13_mat1 {c : Ctx} {o m : Nat} {x : List ℝ} (h : CecFit c o m x) : m + c.nx * c.nx ≤ c.mr.length :=
  le_trans (Nat.le_add_right _ _) h.mats

theorem cec13_asyS {c : Ctx} {b : ℝ} {v w v' w' : ℕ → ℝ} (h1 : CecAgree c.nx v v') (h2 : CecAgree c.nx w w') :
    CecAgree c.nx (asy c b v w) (c13Asy c.nx b v' w') := by
  intro i hi
  unfold asy c13Asy c13E
  rw [h1 i hi, h2 i hi, cec13_half, mul_div_assoc]

theorem cec13_oszS {c : Ctx} {v w : ℕ → ℝ} (hn : 2 ≤ c.nx) (h1 : CecAgree c.nx v w) : CecAgree c.nx (osz c v) (c13Osz c.nx w) := by
  intro i hi
  have hi' : (i = 0 ∨ i = c.nx - 1) ↔ (i = 0 ∨ i + 1 = c.nx) := by omega
  simp only [osz, c13Osz, hi', h1 i hi]
  by_cases hc : i = 0 ∨ i + 1 = c.nx
  · simp only [hc, if_true]
    unfold c13Osz1
    rcases lt_trichotomy (w i) 0 with hw | hw | hw
    · rw [if_neg (by linarith), if_neg hw.ne]
      simp only [hw.ne, if_false, not_lt.2 hw.le, Real.sign_of_neg hw]
      ring
    · rw [hw]; simp
    · rw [if_pos hw]
      simp only [hw.ne', if_false, hw, if_true, Real.sign_of_pos hw]
      ring
  · simp only [hc, if_false]

theorem cec13_lamS {c : Ctx} {a : ℝ} {v w : ℕ → ℝ} (h : CecAgree c.nx v w) :
    CecAgree c.nx (fun i => v i * a ^ (ratio c i / 2)) (c13Lam c.nx a w) := by
  intro i hi
  show v i * a ^ (ratio c i / 2) = a ^ (c13E c.nx i / 2) * w i
  rw [h i hi, mul_comm]; rfl

theorem cec13_lamE {c : Ctx} {a : ℝ} {v w : ℕ → ℝ} (h : CecAgree c.nx v w) :
    ∀ i < c.nx, v i * a ^ (ratio c i / 2) = c13Lam c.nx a w i := cec13_lamS h

theorem cec13_sum {n : Nat} {g h : Nat → ℝ} (H : ∀ i < n, g i = h i) : acc n g = ∑ i ∈ Finset.range n, h i := by
  rw [cec13_acc]; exact Finset.sum_congr rfl (fun i hi => H i (Finset.mem_range.1 hi))

theorem cec13_prodS {n : Nat} {g h : Nat → ℝ} (H : ∀ i < n, g i = h i) :
    (List.range n).foldl (fun (p : ℝ) (i : Nat) => p * g i) 1 = ∏ i ∈ Finset.range n, h i := by
  rw [cec13_prod]; exact Finset.prod_congr rfl (fun i hi => H i (Finset.mem_range.1 hi))

/-- a function of the class computes a function of the specification -/
def CecIs (f : Ctx → Nat → Nat → Bool → List ℝ → Outcome ℝ) (s : C13Fun) : Prop :=
  ∀ (c : Ctx) (o m : Nat) (flag : Bool) (x : List ℝ), CecFit c o m x →
    f c o m flag x = .ok (s c.nx (fun i => entry c.os (o + i)) (cec13Mat c flag m) (cec13Mat c flag (m + c.nx * c.nx)) (entry x))

theorem cec13_isSphere : CecIs sphere c13Sphere := by
  intro c o m flag x h
  obtain ⟨z, ez, hz⟩ := cec13_turnS flag (cec13_mat1 h) (w := fun i => entry x i - entry c.os (o + i)) (fun _ _ => rfl)
  simp only [sphere, cec13_shiftS h, ez, Outcome.bind_ok]
  exact congrArg _ (cec13_sum (fun i hi => by rw [hz i hi]; ring))

theorem cec13_six (t : ℝ) : (10 : ℝ) ^ (6 * t) = (10 ^ 6 : ℝ) ^ t := by
  rw [Real.rpow_mul (by norm_num)]
  norm_num

theorem cec13_isElliptic : CecIs ellips c13Elliptic := by
  intro c o m flag x h
  obtain ⟨z, ez, hz⟩ := cec13_turnS flag (cec13_mat1 h) (w := fun i => entry x i - entry c.os (o + i)) (fun _ _ => rfl)
  simp only [ellips, cec13_shiftS h, ez, Outcome.bind_ok]
  refine congrArg _ (cec13_sum (fun i hi => ?_))
  rw [cec13_oszS h.two hz i hi, cec13_six, mul_assoc, ← pow_two]; rfl

theorem cec13_erase {n : Nat} (hn : 0 < n) (g : Nat → ℝ) : ∑ i ∈ (Finset.range n).erase 0, g i = ∑ i ∈ Finset.range (n - 1), g (i + 1) := by
  obtain ⟨k, rfl⟩ : ∃ k, n = k + 1 := ⟨n - 1, by omega⟩
  have h1 := Finset.add_sum_erase (Finset.range (k + 1)) g (Finset.mem_range.2 (Nat.succ_pos k) : 0 ∈ Finset.range (k + 1))
  rw [Finset.sum_range_succ'] at h1
  simp only [Nat.add_sub_cancel]
  linarith

theorem cec13_isCigar : CecIs bentCigar c13Cigar := by
  intro c o m flag x h
  have h2 := h.two
  obtain ⟨z, ez, hz⟩ := cec13_turnS flag (cec13_mat1 h) (w := fun i => entry x i - entry c.os (o + i)) (fun _ _ => rfl)
  obtain ⟨u, eu, hu⟩ := cec13_turnS flag h.mats (cec13_asyS (b := 0.5) hz (cec13_refl c.nx (fun i => entry x i - entry c.os (o + i))))
  simp only [bentCigar, cec13_shiftS h, ez, eu, Outcome.bind_ok]
  refine congrArg _ ?_
  simp only [c13Cigar]
  rw [cec13_erase (by omega), Finset.mul_sum, hu 0 (by omega), ← pow_two]
  refine congrArg _ (cec13_sum (fun i hi => ?_))
  rw [hu (i + 1) (by omega), mul_assoc, ← pow_two]
  norm_num

theorem cec13_isDiscus : CecIs discus c13Discus := by
  intro c o m flag x h
  have h2 := h.two
  obtain ⟨z, ez, hz⟩ := cec13_turnS flag (cec13_mat1 h) (w := fun i => entry x i - entry c.os (o + i)) (fun _ _ => rfl)
  simp only [discus, cec13_shiftS h, ez, Outcome.bind_ok]
  have hu := cec13_oszS h.two hz
  refine congrArg _ ?_
  simp only [c13Discus]
  rw [cec13_erase (by omega), hu 0 (by omega), mul_assoc, ← pow_two]
  refine congrArg₂ _ (by norm_num) (cec13_sum (fun i hi => ?_))
  rw [hu (i + 1) (by omega), ← pow_two]

theorem cec13_isPowers : CecIs difPowers c13Powers := by
  intro c o m flag x h
  obtain ⟨z, ez, hz⟩ := cec13_turnS flag (cec13_mat1 h) (w := fun i => entry x i - entry c.os (o + i)) (fun _ _ => rfl)
  simp only [difPowers, cec13_shiftS h, ez, Outcome.bind_ok]
  rw [cec13_half]
  refine congrArg _ (congrArg _ (cec13_sum (fun i hi => ?_)))
  rw [hz i hi]; rfl

theorem cec13_isRosenbrock : CecIs rosenbrock c13Rosenbrock := by
  intro c o m flag x h
  obtain ⟨z, ez, hz⟩ := cec13_turnS flag (cec13_mat1 h) (v := fun i => (entry x i - entry c.os (o + i)) * 2.048 / 100)
    (w := fun i => 2.048 * (entry x i - entry c.os (o + i)) / 100) (fun i _ => by ring)
  simp only [rosenbrock, cec13_shiftS h, ez, Outcome.bind_ok]
  refine congrArg _ (cec13_sum (fun i hi => ?_))
  rw [hz i (by omega), hz (i + 1) (by omega)]
  ring

theorem cec13_isSchaffer : CecIs schafferF7 c13Schaffer := by
  intro c o m flag x h
  obtain ⟨z, ez, hz⟩ := cec13_turnS flag (cec13_mat1 h) (w := fun i => entry x i - entry c.os (o + i)) (fun _ _ => rfl)
  obtain ⟨u, eu, hu⟩ := cec13_turnS flag h.mats (cec13_lamS (a := 10) (cec13_asyS (b := 0.5) hz (cec13_refl c.nx (fun i => entry x i - entry c.os (o + i)))))
  simp only [schafferF7, cec13_shiftS h, ez, eu, Outcome.bind_ok]
  refine congrArg _ ?_
  simp only [c13Schaffer]
  rw [div_div, ← pow_two, ← pow_two, ← div_pow, div_eq_inv_mul, ← one_div]
  refine congrArg (fun t => (1 / ((c.nx : ℝ) - 1) * t) ^ 2) (cec13_sum (fun i hi => ?_))
  rw [hu i (by omega), hu (i + 1) (by omega)]
  simp only [cec13_half, ← pow_two]
  ring

theorem cec13_isAckley : CecIs ackley c13Ackley := by
  intro c o m flag x h
  obtain ⟨z, ez, hz⟩ := cec13_turnS flag (cec13_mat1 h) (w := fun i => entry x i - entry c.os (o + i)) (fun _ _ => rfl)
  obtain ⟨u, eu, hu⟩ := cec13_turnS flag h.mats (cec13_lamS (a := 10) (cec13_asyS (b := 0.5) hz (cec13_refl c.nx (fun i => entry x i - entry c.os (o + i)))))
  simp only [ackley, cec13_shiftS h, ez, eu, Outcome.bind_ok]
  refine congrArg _ ?_
  rw [cec13_sum (g := fun i => u i * u i) (fun i hi => by rw [hu i hi, ← pow_two]),
    cec13_sum (g := fun i => Real.cos (2 * Real.pi * u i)) (fun i hi => by rw [hu i hi])]
  simp only [c13Ackley]
  simp only [div_eq_inv_mul, mul_one, one_div]
  ring

theorem cec13_isWeierstrass : CecIs weierstrass c13Weierstrass := by
  intro c o m flag x h
  have h0 : CecAgree c.nx (fun i => (entry x i - entry c.os (o + i)) * 0.5 / 100) (fun i => 0.5 * (entry x i - entry c.os (o + i)) / 100) :=
    fun i _ => by ring
  obtain ⟨z, ez, hz⟩ := cec13_turnS flag (cec13_mat1 h) h0
  obtain ⟨u, eu, hu⟩ := cec13_turnS flag h.mats (cec13_lamS (a := 10) (cec13_asyS (b := 0.5) hz h0))
  simp only [weierstrass, cec13_shiftS h, ez, eu, Outcome.bind_ok]
  refine congrArg _ (congrArg₂ _ (cec13_sum (fun i hi => ?_)) (congrArg _ (cec13_sum (fun i hi => rfl))))
  rw [hu i hi]
  exact cec13_sum (fun i hi => rfl)

theorem cec13_isGriewank : CecIs griewank c13Griewank := by
  intro c o m flag x h
  obtain ⟨z, ez, hz⟩ := cec13_turnS flag (cec13_mat1 h) (v := fun i => (entry x i - entry c.os (o + i)) * 600 / 100)
    (w := fun i => 600 * (entry x i - entry c.os (o + i)) / 100) (fun i _ => by ring)
  have hu := cec13_lamE (a := 100) hz
  simp only [griewank, cec13_shiftS h, ez, Outcome.bind_ok]
  refine congrArg _ ?_
  simp only [c13Griewank]
  rw [cec13_sum (fun i hi => by rw [hu i hi, ← pow_two]), cec13_prodS (fun i hi => by rw [hu i hi, add_comm]), Finset.sum_div]
  ring

theorem cec13_tailS {c : Ctx} {o m : Nat} {x : List ℝ} (flag : Bool) {y w : ℕ → ℝ} (h : CecFit c o m x) (hy : CecAgree c.nx y w) :
    rastriginTail c m flag y = .ok (c13RasTail c.nx (cec13Mat c flag m) (cec13Mat c flag (m + c.nx * c.nx)) w) := by
  obtain ⟨u, eu, hu⟩ := cec13_turnS flag h.mats (cec13_asyS (b := 0.2) (cec13_oszS h.two hy) hy)
  obtain ⟨z, ez, hz⟩ := cec13_turnS flag (cec13_mat1 h) (cec13_lamS (a := 10) hu)
  simp only [rastriginTail, eu, ez, Outcome.bind_ok]
  refine congrArg _ (cec13_sum (fun i hi => ?_))
  rw [hz i hi, ← pow_two]

theorem cec13_isRastrigin : CecIs rastrigin c13Rastrigin := by
  intro c o m flag x h
  obtain ⟨z, ez, hz⟩ := cec13_turnS flag (cec13_mat1 h) (v := fun i => (entry x i - entry c.os (o + i)) * 5.12 / 100)
    (w := fun i => 5.12 * (entry x i - entry c.os (o + i)) / 100) (fun i _ => by ring)
  simp only [rastrigin, cec13_shiftS h, ez, Outcome.bind_ok]
  exact cec13_tailS flag h hz

theorem cec13_isStep : CecIs stepRastrigin c13Step := by
  intro c o m flag x h
  obtain ⟨z, ez, hz⟩ := cec13_turnS flag (cec13_mat1 h) (v := fun i => (entry x i - entry c.os (o + i)) * 5.12 / 100)
    (w := fun i => 5.12 * (entry x i - entry c.os (o + i)) / 100) (fun i _ => by ring)
  simp only [stepRastrigin, cec13_shiftS h, ez, Outcome.bind_ok]
  refine cec13_tailS flag h (fun i hi => ?_)
  show (if 0.5 < |z i| then (⌊2 * z i + 0.5⌋ : ℝ) / 2 else z i) = _
  rw [hz i hi, round_eq]
  by_cases hc : |c13Mul c.nx (cec13Mat c flag m) (fun i => 5.12 * (entry x i - entry c.os (o + i)) / 100) i| ≤ 0.5
  · rw [if_neg (not_lt.2 hc), if_pos hc]
  · rw [if_pos (not_le.1 hc), if_neg hc]
    norm_num

theorem cec13_mod (t : ℝ) : fmod500 t = c13Mod t := by
  unfold fmod500 c13Mod
  rw [Int.fract]; ring

theorem cec13_termS (c : Ctx) (z : ℝ) : schwefelTerm c z = -c13SchwefelG c.nx z := by
  unfold schwefelTerm c13SchwefelG
  simp only [cec13_half, cec13_mod]
  have e (t : ℝ) : t / 100 * (t / 100) / c.nx = t ^ 2 / (10000 * c.nx) := by
    rw [div_mul_div_comm, div_div, ← pow_two]; norm_num
  have m1 (t : ℝ) : c13Mod t < 500 := by rw [← cec13_mod]; exact (cec13_fmod t).2
  by_cases h1 : 500 < z
  · rw [if_pos h1, if_neg (by rw [abs_of_pos (by linarith)]; linarith), if_pos h1, abs_of_pos (by linarith [m1 z]), e]
    ring
  · by_cases h2 : z < -500
    · rw [if_neg h1, if_pos h2, if_neg (by rw [abs_of_neg (by linarith)]; linarith), if_neg h1, abs_of_neg (a := c13Mod |z| - 500) (by linarith [m1 |z|]), e]
      ring_nf
    · rw [if_neg h1, if_neg h2, if_pos (abs_le.2 ⟨by linarith, by linarith⟩)]

theorem cec13_isSchwefel : CecIs schwefel c13Schwefel := by
  intro c o m flag x h
  obtain ⟨z, ez, hz⟩ := cec13_turnS flag (cec13_mat1 h) (v := fun i => (entry x i - entry c.os (o + i)) * (1000 / 100))
    (w := fun i => 1000 * (entry x i - entry c.os (o + i)) / 100) (fun i _ => by ring)
  have hu := cec13_lamE (a := 10) hz
  simp only [schwefel, cec13_shiftS h, ez, Outcome.bind_ok]
  refine congrArg _ ?_
  simp only [c13Schwefel]
  rw [sub_eq_add_neg, ← Finset.sum_neg_distrib]
  refine congrArg _ (cec13_sum (fun i hi => ?_))
  rw [hu i hi, cec13_termS]

theorem cec13_katS (t : ℝ) : kat t = ∑ j ∈ Finset.range 32, |2 ^ (j + 1) * t - (round (2 ^ (j + 1) * t) : ℝ)| / 2 ^ (j + 1) := by
  refine cec13_sum (fun j _ => ?_)
  rw [round_eq]; norm_num

theorem cec13_isKatsuura : CecIs katsuura c13Katsuura := by
  intro c o m flag x h
  obtain ⟨z, ez, hz⟩ := cec13_turnS flag (cec13_mat1 h) (v := fun i => (entry x i - entry c.os (o + i)) * (5 / 100))
    (w := fun i => 5 * (entry x i - entry c.os (o + i)) / 100) (fun i _ => by ring)
  obtain ⟨u, eu, hu⟩ := cec13_turnS flag h.mats (cec13_lamS (a := 100) hz)
  simp only [katsuura, cec13_shiftS h, ez, eu, Outcome.bind_ok]
  refine congrArg _ ?_
  simp only [c13Katsuura]
  rw [cec13_prodS (fun i hi => by rw [hu i hi, cec13_katS]), div_div, ← pow_two]
  ring

theorem cec13_isLunacek : CecIs biRastrigin c13Lunacek := by
  intro c o m flag x h
  have ht (i : Nat) : (if entry c.os (o + i) < 0 then 2 * ((entry x i - entry c.os (o + i)) * (10 / 100)) * (-1)
      else 2 * ((entry x i - entry c.os (o + i)) * (10 / 100)))
      = 2 * (if 0 ≤ entry c.os (o + i) then 1 else -1) * (10 * (entry x i - entry c.os (o + i)) / 100) := by
    by_cases hc : entry c.os (o + i) < 0
    · rw [if_pos hc, if_neg (not_le.2 hc)]; ring
    · rw [if_neg hc, if_pos (not_lt.1 hc)]; ring
  obtain ⟨z, ez, hz⟩ := cec13_turnS flag (cec13_mat1 h)
    (v := fun i => 2 * (if 0 ≤ entry c.os (o + i) then 1 else -1) * (10 * (entry x i - entry c.os (o + i)) / 100))
    (w := fun i => 2 * (if 0 ≤ entry c.os (o + i) then 1 else -1) * (10 * (entry x i - entry c.os (o + i)) / 100) + 2.5 - 2.5) (fun i _ => by ring)
  obtain ⟨u, eu, hu⟩ := cec13_turnS flag h.mats (cec13_lamS (a := 100) hz)
  simp only [biRastrigin, cec13_shiftS h, ht, ez, eu, Outcome.bind_ok]
  refine congrArg _ ?_
  simp only [c13Lunacek]
  rw [cec13_sum (g := fun i => Real.cos (2 * Real.pi * u i)) (fun i hi => by rw [hu i hi])]
  simp only [cec13_half, ← pow_two, cec13_acc, one_mul]
  refine congrArg₂ _ ?_ rfl
  rw [min_def_lt]
  refine if_congr ?_ rfl ?_
  · rw [add_comm, mul_comm]
  · rw [add_comm, mul_comm]

theorem cec13_cyc {n : Nat} (hn : 0 < n) (g : Nat → Nat → ℝ) :
    ∑ i ∈ Finset.range n, g i ((i + 1) % n) = ∑ i ∈ Finset.range (n - 1), g i (i + 1) + g (n - 1) 0 := by
  obtain ⟨k, rfl⟩ : ∃ k, n = k + 1 := ⟨n - 1, by omega⟩
  rw [Finset.sum_range_succ, Nat.mod_self, Nat.add_sub_cancel]
  refine congrArg₂ _ (Finset.sum_congr rfl (fun i hi => ?_)) rfl
  rw [Nat.mod_eq_of_lt (by have := Finset.mem_range.1 hi; omega)]

theorem cec13_isGrieRosen : CecIs grieRosen c13GrieRosen := by
  intro c o m flag x h
  have h2 := h.two
  obtain ⟨z, ez, -⟩ := cec13_turnS flag (cec13_mat1 h) (v := fun i => (entry x i - entry c.os (o + i)) * 5 / 100) (fun i _ => rfl)
  have g (a b : ℝ) : grTerm a b = (100 * (a ^ 2 - b) ^ 2 + (a - 1) ^ 2) ^ 2 / 4000 - Real.cos (100 * (a ^ 2 - b) ^ 2 + (a - 1) ^ 2) + 1 := by
    unfold grTerm
    simp only [mul_assoc, ← pow_two]
  simp only [grieRosen, cec13_shiftS h, ez, Outcome.bind_ok]
  refine congrArg _ ?_
  unfold c13GrieRosen
  simp only
  rw [cec13_cyc (by omega) (fun i j => (100 * ((5 * (entry x i - entry c.os (o + i)) / 100 + 1) ^ 2 - (5 * (entry x j - entry c.os (o + j)) / 100 + 1)) ^ 2
    + (5 * (entry x i - entry c.os (o + i)) / 100 + 1 - 1) ^ 2) ^ 2 / 4000 - Real.cos (100 * ((5 * (entry x i - entry c.os (o + i)) / 100 + 1) ^ 2
    - (5 * (entry x j - entry c.os (o + j)) / 100 + 1)) ^ 2 + (5 * (entry x i - entry c.os (o + i)) / 100 + 1 - 1) ^ 2) + 1), cec13_acc]
  simp only [g, mul_comm _ (5 : ℝ)]

theorem cec13_isScaffer : CecIs escaffer6 c13Scaffer := by
  intro c o m flag x h
  have h2 := h.two
  obtain ⟨z, ez, hz⟩ := cec13_turnS flag (cec13_mat1 h) (w := fun i => entry x i - entry c.os (o + i)) (fun _ _ => rfl)
  obtain ⟨u, eu, hu⟩ := cec13_turnS flag h.mats (cec13_asyS (b := 0.5) hz (cec13_refl c.nx (fun i => entry x i - entry c.os (o + i))))
  have g (a b : ℝ) : esTerm a b = 0.5 + (Real.sin √(a ^ 2 + b ^ 2) ^ 2 - 0.5) / (1 + 0.001 * (a ^ 2 + b ^ 2)) ^ 2 := by
    unfold esTerm
    simp only [← pow_two]
  simp only [escaffer6, cec13_shiftS h, ez, eu, Outcome.bind_ok]
  refine congrArg _ ?_
  unfold c13Scaffer
  simp only [← g]
  rw [cec13_cyc (by omega) (fun i j => esTerm
    (c13Mul c.nx (cec13Mat c flag (m + c.nx * c.nx)) (c13Asy c.nx 0.5 (c13Mul c.nx (cec13Mat c flag m) (fun i => entry x i - entry c.os (o + i)))
      (fun i => entry x i - entry c.os (o + i))) i)
    (c13Mul c.nx (cec13Mat c flag (m + c.nx * c.nx)) (c13Asy c.nx 0.5 (c13Mul c.nx (cec13Mat c flag m) (fun i => entry x i - entry c.os (o + i)))
      (fun i => entry x i - entry c.os (o + i))) j))]
  rw [hu 0 (by omega), hu (c.nx - 1) (by omega), cec13_sum (fun i hi => by rw [hu i (by omega), hu (i + 1) (by omega)])]

theorem cec13_at {f : Ctx → Nat → Nat → Bool → List ℝ → Outcome ℝ} {g : C13Fun} (hf : CecIs f g) {c : Ctx} {k : Nat} {flag : Bool} {x : List ℝ}
    (h : CecFit c (k * c.nx) (k * c.nx * c.nx) x) : f c (k * c.nx) (k * c.nx * c.nx) flag x = .ok (c13At g flag c.nx c.os c.mr k x) := by
  rw [hf c _ _ flag x h]
  refine congrArg _ ?_
  have e1 : cec13Mat c flag (k * c.nx * c.nx) = c13Mat flag c.nx c.mr k := by
    funext i j
    unfold cec13Mat c13Mat entry
    cases flag
    · rfl
    · simp only [if_true]
      rw [show k * c.nx * c.nx + (i * c.nx + j) = (k * c.nx + i) * c.nx + j by ring]
  have e2 : cec13Mat c flag (k * c.nx * c.nx + c.nx * c.nx) = c13Mat flag c.nx c.mr (k + 1) := by
    funext i j
    unfold cec13Mat c13Mat entry
    cases flag
    · rfl
    · simp only [if_true]
      rw [show k * c.nx * c.nx + c.nx * c.nx + (i * c.nx + j) = ((k + 1) * c.nx + i) * c.nx + j by ring]
  rw [e1, e2]
  rfl

theorem cec13_weightS (c : Ctx) (x : List ℝ) (d : ℝ) (i : Nat) :
    weight c x d i = c13Weight c.nx (c13Shift c.nx c.os i) d (fun j => x.getD j 0) := by
  unfold weight c13Weight
  simp only [cec13_acc, cec13_half]
  show (if ¬ _ then _ else _) = _
  rw [ite_not]
  refine if_congr Iff.rfl rfl ?_
  rw [Real.sqrt_div zero_le_one, Real.sqrt_one, div_div, div_div, ← mul_assoc]
  rfl

/-- a component of the class is one of the specification -/
def CecPartIs (p : Part) (q : C13Part) : Prop := CecIs p.f q.1 ∧ p.flag = q.2.1 ∧ p.num / p.den = q.2.2.1

theorem cec13_fitsS {c : Ctx} {x : List ℝ} (hn : 2 ≤ c.nx) (hx : c.nx ≤ x.length) {ps : List Part} {qs : List C13Part} (H : List.Forall₂ CecPartIs ps qs)
    (i : Nat) (ho : (i + ps.length) * c.nx ≤ c.os.length) (hm : (i + ps.length + 1) * (c.nx * c.nx) ≤ c.mr.length) :
    fits c x i ps = .ok ((qs.zipIdx i).map (fun q => q.1.2.2.1 * c13At q.1.1 q.1.2.1 c.nx c.os c.mr q.2 x)) := by
  induction H generalizing i with
  | nil => rfl
  | @cons p q ps qs hpq _ ih =>
    rw [List.length_cons] at ho hm
    have hfit : CecFit c (i * c.nx) (i * c.nx * c.nx) x := by
      refine ⟨hn, hx, ?_, ?_⟩
      · have : (i + 1) * c.nx ≤ (i + (ps.length + 1)) * c.nx := Nat.mul_le_mul_right _ (by omega)
        rw [Nat.add_mul, Nat.one_mul] at this
        omega
      · have : (i + 2) * (c.nx * c.nx) ≤ (i + (ps.length + 1) + 1) * (c.nx * c.nx) := Nat.mul_le_mul_right _ (by omega)
        rw [Nat.add_mul, ← Nat.mul_assoc] at this
        omega
    obtain ⟨h1, h2, h3⟩ := hpq
    have e := ih (i + 1) (by rw [show i + 1 + ps.length = i + (ps.length + 1) by omega]; exact ho)
      (by rw [show i + 1 + ps.length = i + (ps.length + 1) by omega]; exact hm)
    simp only [fits, cec13_at h1 hfit, e, Outcome.bind_ok, List.zipIdx_cons, List.map_cons]
    rw [mul_div_right_comm, h3, h2]

theorem cec13_sumList {α : Type} (l : List α) (k : Nat) (F : Nat → ℝ) (G : α × Nat → ℝ) (h : ∀ (i : Nat) (hi : i < l.length), F i = G (l[i], k + i)) :
    ∑ i ∈ Finset.range l.length, F i = ((l.zipIdx k).map G).sum := by
  induction l generalizing k F with
  | nil => simp
  | cons a l ih =>
    rw [List.length_cons, Finset.sum_range_succ', List.zipIdx_cons, List.map_cons, List.sum_cons, h 0 (by simp)]
    rw [ih (k + 1) (fun i => F (i + 1)) (fun i hi => by
      rw [h (i + 1) (by simpa using hi)]
      simp only [List.getElem_cons_succ]
      rw [show k + (i + 1) = k + 1 + i by omega])]
    simp only [List.getElem_cons_zero, Nat.add_zero]
    ring

theorem cec13_entryMap {α : Type} (l : List α) (f : α → ℝ) {i : Nat} (hi : i < l.length) : entry (l.map f) i = f l[i] := by
  unfold entry
  rw [List.getD_eq_getElem?_getD, List.getElem?_map, List.getElem?_eq_getElem hi]
  rfl

theorem cec13_compS {c : Ctx} {x : List ℝ} (hn : 2 ≤ c.nx) (hx : c.nx ≤ x.length) (ho : 5 * c.nx ≤ c.os.length)
    (hm : 6 * (c.nx * c.nx) ≤ c.mr.length) {q : Comp} {qs : List C13Part} (H : List.Forall₂ CecPartIs q.parts qs)
    (hd : q.delta = qs.map (fun p => p.2.2.2.1)) (hb : q.bias = qs.map (fun p => p.2.2.2.2)) (hl : qs ≠ []) (hl' : qs.length ≤ 5) :
    comp c q x = .ok (c13Comp qs c.nx c.os c.mr x) := by
  have hlen := H.length_eq
  have e := cec13_fitsS hn hx H 0 (le_trans (Nat.mul_le_mul_right _ (by omega)) ho) (le_trans (Nat.mul_le_mul_right _ (by omega)) hm)
  simp only [comp, e, Outcome.bind_ok]
  rw [cec13_cfCal hx (by simp only [List.length_map, List.length_zipIdx]; exact le_trans (Nat.mul_le_mul_right _ hl') ho) (by simpa using hl)]
  refine congrArg _ ?_
  simp only [List.length_map, List.length_zipIdx]
  unfold c13Comp
  refine congrArg₂ _ ?_ ?_
  · refine cec13_sumList qs 0 _ _ (fun i hi => ?_)
    rw [cec13_entryMap _ _ (by simpa using hi), hd, hb, cec13_entryMap _ _ hi, cec13_entryMap _ _ hi, cec13_weightS]
    simp only [List.getElem_zipIdx]
    rw [Nat.zero_add]; rfl
  · refine cec13_sumList qs 0 _ _ (fun i hi => ?_)
    rw [hd, cec13_entryMap _ _ hi, cec13_weightS]
    rw [Nat.zero_add]; rfl

section
attribute [local irreducible] sphere ellips bentCigar discus difPowers rosenbrock schafferF7 ackley weierstrass griewank rastrigin stepRastrigin
  schwefel katsuura biRastrigin grieRosen escaffer6 c13Sphere c13Elliptic c13Cigar c13Discus c13Powers c13Rosenbrock c13Schaffer c13Ackley
  c13Weierstrass c13Griewank c13Rastrigin c13Step c13Schwefel c13Katsuura c13Lunacek c13GrieRosen c13Scaffer

theorem cec13_basicsS : List.Forall₂ (fun p (s : C13Fun × Bool × ℝ) => CecIs p.1 s.1 ∧ p.2 = s.2.1) basics c13Basics := by
  simp only [basics, c13Basics, List.forall₂_cons, List.Forall₂.nil, and_true, true_and]
  exact ⟨cec13_isSphere, cec13_isElliptic, cec13_isCigar, cec13_isDiscus, cec13_isPowers, cec13_isRosenbrock, cec13_isSchaffer, cec13_isAckley,
    cec13_isWeierstrass, cec13_isGriewank, cec13_isRastrigin, cec13_isRastrigin, cec13_isStep, cec13_isSchwefel, cec13_isSchwefel, cec13_isKatsuura,
    cec13_isLunacek, cec13_isLunacek, cec13_isGrieRosen, cec13_isScaffer⟩

theorem cec13_partIs {f : Ctx → Nat → Nat → Bool → List ℝ → Outcome ℝ} {g : C13Fun} (h : CecIs f g) {flag : Bool} {num den l s b : ℝ} (e : num / den = l) :
    CecPartIs ⟨f, flag, num, den⟩ (g, flag, l, s, b) := ⟨h, rfl, e⟩

theorem cec13_compsS : List.Forall₂ (fun (q : Comp) (s : List C13Part × ℝ) => List.Forall₂ CecPartIs q.parts s.1 ∧ q.delta = s.1.map (fun p => p.2.2.2.1)
    ∧ q.bias = s.1.map (fun p => p.2.2.2.2) ∧ s.1 ≠ [] ∧ s.1.length ≤ 5) comps c13Comps := by
  simp only [comps, c13Comps, List.forall₂_cons, List.Forall₂.nil, and_true, true_and, List.map_cons, List.map_nil]
  refine ⟨⟨⟨?_, ?_, ?_, ?_, ?_⟩, ?_⟩, ⟨⟨?_, ?_, ?_⟩, ?_⟩, ⟨⟨?_, ?_, ?_⟩, ?_⟩, ⟨⟨?_, ?_, ?_⟩, ?_⟩, ⟨⟨?_, ?_, ?_⟩, ?_⟩, ⟨⟨?_, ?_, ?_, ?_, ?_⟩, ?_⟩,
    ⟨⟨?_, ?_, ?_, ?_, ?_⟩, ?_⟩, ⟨?_, ?_, ?_, ?_, ?_⟩, ?_⟩
  all_goals
    first
      | exact cec13_partIs cec13_isSchwefel (by norm_num)
      | exact cec13_partIs cec13_isRosenbrock (by norm_num)
      | exact cec13_partIs cec13_isPowers (by norm_num)
      | exact cec13_partIs cec13_isCigar (by norm_num)
      | exact cec13_partIs cec13_isDiscus (by norm_num)
      | exact cec13_partIs cec13_isSphere (by norm_num)
      | exact cec13_partIs cec13_isRastrigin (by norm_num)
      | exact cec13_partIs cec13_isWeierstrass (by norm_num)
      | exact cec13_partIs cec13_isElliptic (by norm_num)
      | exact cec13_partIs cec13_isGriewank (by norm_num)
      | exact cec13_partIs cec13_isGrieRosen (by norm_num)
      | exact cec13_partIs cec13_isSchaffer (by norm_num)
      | exact cec13_partIs cec13_isScaffer (by norm_num)
      | simp

end

end Verif.Props
