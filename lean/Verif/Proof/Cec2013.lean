import Verif.Model.Cec2013
import Verif.Props.Schwefel
import Mathlib.Analysis.SpecialFunctions.Pow.Real
import Mathlib.Algebra.BigOperators.Field
import Mathlib.Tactic.Linarith
import Mathlib.Tactic.Positivity

/-!
Lemmas on the model of `cec2013`: every basic function has a floor, which it attains at the shift.
-/

set_option autoImplicit false

namespace Verif.Props

open Verif Verif.Cec13

theorem cec13_acc (n : Nat) (g : Nat → ℝ) : acc n g = ∑ i ∈ Finset.range n, g i := by
  unfold acc
  induction n with
  | zero => simp
  | succ n ih => rw [List.range_succ, List.foldl_append, ih, Finset.sum_range_succ]; rfl

theorem cec13_prod (n : Nat) (g : Nat → ℝ) :
    (List.range n).foldl (fun (p : ℝ) (i : Nat) => p * g i) 1 = ∏ i ∈ Finset.range n, g i := by
  induction n with
  | zero => simp
  | succ n ih => rw [List.range_succ, List.foldl_append, ih, Finset.prod_range_succ]; rfl

theorem cec13_acc_nonneg {n : Nat} {g : Nat → ℝ} (h : ∀ i < n, 0 ≤ g i) : 0 ≤ acc n g := by
  rw [cec13_acc]; exact Finset.sum_nonneg (fun i hi => h i (Finset.mem_range.1 hi))

theorem cec13_acc_zero {n : Nat} {g : Nat → ℝ} (h : ∀ i < n, g i = 0) : acc n g = 0 := by
  rw [cec13_acc]; exact Finset.sum_eq_zero (fun i hi => h i (Finset.mem_range.1 hi))

theorem cec13_acc_le {n : Nat} {g h : Nat → ℝ} (H : ∀ i < n, g i ≤ h i) : acc n g ≤ acc n h := by
  rw [cec13_acc, cec13_acc]; exact Finset.sum_le_sum (fun i hi => H i (Finset.mem_range.1 hi))

theorem cec13_acc_const (n : Nat) (k : ℝ) : acc n (fun _ => k) = n * k := by
  rw [cec13_acc, Finset.sum_const, Finset.card_range, nsmul_eq_mul]

theorem cec13_acc_congr {n : Nat} {g h : Nat → ℝ} (H : ∀ i < n, g i = h i) : acc n g = acc n h := by
  rw [cec13_acc, cec13_acc]; exact Finset.sum_congr rfl (fun i hi => H i (Finset.mem_range.1 hi))

/-- the entries below `n` are 0 -/
def CecZed (n : Nat) (v : Vec) : Prop := ∀ i < n, v i = 0

/-- the point is the shift at offset `o` -/
def CecAt (c : Ctx) (o : Nat) (x : List ℝ) : Prop := ∀ i < c.nx, entry x i = entry c.os (o + i)

/-- the outcome is a value, not below `-e`, and not above `e` under the condition `P` -/
def CecFloor (f : Outcome ℝ) (P : Prop) (e : ℝ) : Prop := ∃ v, f = .ok v ∧ -e ≤ v ∧ (P → v ≤ e)

/-- the tables and the point are long enough for a function with the shift at `o` and matrices at `m` -/
structure CecFit (c : Ctx) (o m : Nat) (x : List ℝ) : Prop where
  two : 2 ≤ c.nx
  point : c.nx ≤ x.length
  table : o + c.nx ≤ c.os.length
  mats : m + c.nx * c.nx + c.nx * c.nx ≤ c.mr.length

theorem cec13_shift {c : Ctx} {o m : Nat} {x : List ℝ} (h : CecFit c o m x) :
    ∃ y, shift c o x = .ok y ∧ (CecAt c o x → CecZed c.nx y) := by
  refine ⟨_, if_pos ⟨h.point, h.table⟩, ?_⟩
  intro hp i hi
  show entry x i - entry c.os (o + i) = 0
  rw [hp i hi]; ring

theorem cec13_turn {c : Ctx} {m : Nat} (flag : Bool) (v : Vec) (h : m + c.nx * c.nx ≤ c.mr.length) :
    ∃ z, turn c flag m v = .ok z ∧ (CecZed c.nx v → CecZed c.nx z) := by
  unfold turn rotate
  cases flag with
  | false => exact ⟨v, by simp, id⟩
  | true =>
    refine ⟨_, by rw [if_pos rfl, if_pos h], ?_⟩
    intro hv i _
    refine cec13_acc_zero (fun j hj => ?_)
    rw [hv j hj]; ring

theorem cec13_turn1 {c : Ctx} {o m : Nat} {x : List ℝ} (flag : Bool) (v : Vec) (h : CecFit c o m x) :
    ∃ z, turn c flag m v = .ok z ∧ (CecZed c.nx v → CecZed c.nx z) :=
  cec13_turn flag v (le_trans (Nat.le_add_right _ _) h.mats)

theorem cec13_turn2 {c : Ctx} {o m : Nat} {x : List ℝ} (flag : Bool) (v : Vec) (h : CecFit c o m x) :
    ∃ z, turn c flag (m + c.nx * c.nx) v = .ok z ∧ (CecZed c.nx v → CecZed c.nx z) :=
  cec13_turn flag v h.mats

theorem cec13_asy {c : Ctx} {b : ℝ} {v old : Vec} (h1 : CecZed c.nx v) (h2 : CecZed c.nx old) : CecZed c.nx (asy c b v old) := by
  intro i hi
  simp [asy, h1 i hi, h2 i hi]

theorem cec13_osz {c : Ctx} {v : Vec} (h1 : CecZed c.nx v) : CecZed c.nx (osz c v) := by
  intro i hi
  simp [osz, h1 i hi]

theorem cec13_scale {n : Nat} {v : Vec} (k : Nat → ℝ) (h1 : CecZed n v) : CecZed n (fun i => v i * k i) := by
  intro i hi
  simp [h1 i hi]

theorem cec13_sphere {c : Ctx} {o m : Nat} {x : List ℝ} (flag : Bool) (h : CecFit c o m x) :
    CecFloor (sphere c o m flag x) (CecAt c o x) 0 := by
  obtain ⟨y, ey, hy⟩ := cec13_shift h
  obtain ⟨z, ez, hz⟩ := cec13_turn1 flag y h
  refine ⟨_, by simp only [sphere, ey, ez, Outcome.bind_ok]; rfl, ?_, ?_⟩
  · rw [neg_zero]; exact cec13_acc_nonneg (fun i _ => mul_self_nonneg _)
  · intro hp
    exact le_of_eq (cec13_acc_zero (fun i hi => by rw [hz (hy hp) i hi]; ring))

theorem cec13_ellips {c : Ctx} {o m : Nat} {x : List ℝ} (flag : Bool) (h : CecFit c o m x) :
    CecFloor (ellips c o m flag x) (CecAt c o x) 0 := by
  obtain ⟨y, ey, hy⟩ := cec13_shift h
  obtain ⟨z, ez, hz⟩ := cec13_turn1 flag y h
  refine ⟨_, by simp only [ellips, ey, ez, Outcome.bind_ok]; rfl, ?_, ?_⟩
  · rw [neg_zero]
    refine cec13_acc_nonneg (fun i _ => ?_)
    rw [mul_assoc]
    exact mul_nonneg (by positivity) (mul_self_nonneg _)
  · intro hp
    exact le_of_eq (cec13_acc_zero (fun i hi => by rw [cec13_osz (hz (hy hp)) i hi]; ring))

theorem cec13_bentCigar {c : Ctx} {o m : Nat} {x : List ℝ} (flag : Bool) (h : CecFit c o m x) :
    CecFloor (bentCigar c o m flag x) (CecAt c o x) 0 := by
  obtain ⟨y, ey, hy⟩ := cec13_shift h
  obtain ⟨z, ez, hz⟩ := cec13_turn1 flag y h
  obtain ⟨w, ew, hw⟩ := cec13_turn2 flag (asy c 0.5 z y) h
  refine ⟨_, by simp only [bentCigar, ey, ez, ew, Outcome.bind_ok]; rfl, ?_, ?_⟩
  · rw [neg_zero]
    refine add_nonneg (mul_self_nonneg _) (cec13_acc_nonneg (fun i _ => ?_))
    rw [mul_assoc]
    exact mul_nonneg (by positivity) (mul_self_nonneg _)
  · intro hp
    have h0 := hw (cec13_asy (hz (hy hp)) (hy hp))
    have h2 := h.two
    rw [h0 0 (by omega), cec13_acc_zero (fun i hi => by rw [h0 (i + 1) (by omega)]; ring)]
    norm_num

theorem cec13_discus {c : Ctx} {o m : Nat} {x : List ℝ} (flag : Bool) (h : CecFit c o m x) :
    CecFloor (discus c o m flag x) (CecAt c o x) 0 := by
  obtain ⟨y, ey, hy⟩ := cec13_shift h
  obtain ⟨z, ez, hz⟩ := cec13_turn1 flag y h
  refine ⟨_, by simp only [discus, ey, ez, Outcome.bind_ok]; rfl, ?_, ?_⟩
  · rw [neg_zero]
    refine add_nonneg ?_ (cec13_acc_nonneg (fun i _ => mul_self_nonneg _))
    rw [mul_assoc]
    exact mul_nonneg (by positivity) (mul_self_nonneg _)
  · intro hp
    have h0 := cec13_osz (hz (hy hp))
    have h2 := h.two
    rw [h0 0 (by omega), cec13_acc_zero (fun i hi => by rw [h0 (i + 1) (by omega)]; ring)]
    norm_num

theorem cec13_ratio_nonneg {c : Ctx} (h : 2 ≤ c.nx) (i : Nat) : 0 ≤ ratio c i := by
  unfold ratio
  have : (2 : ℝ) ≤ c.nx := by exact_mod_cast h
  exact div_nonneg (Nat.cast_nonneg i) (by linarith)

theorem cec13_difPowers {c : Ctx} {o m : Nat} {x : List ℝ} (flag : Bool) (h : CecFit c o m x) :
    CecFloor (difPowers c o m flag x) (CecAt c o x) 0 := by
  obtain ⟨y, ey, hy⟩ := cec13_shift h
  obtain ⟨z, ez, hz⟩ := cec13_turn1 flag y h
  refine ⟨_, by simp only [difPowers, ey, ez, Outcome.bind_ok]; rfl, ?_, ?_⟩
  · rw [neg_zero]
    exact Real.rpow_nonneg (cec13_acc_nonneg (fun i _ => Real.rpow_nonneg (abs_nonneg _) _)) _
  · intro hp
    rw [cec13_acc_zero (fun i hi => by
      rw [hz (hy hp) i hi, abs_zero, Real.zero_rpow]
      have := cec13_ratio_nonneg h.two i
      linarith)]
    rw [Real.zero_rpow (by norm_num)]

theorem cec13_rosenbrock {c : Ctx} {o m : Nat} {x : List ℝ} (flag : Bool) (h : CecFit c o m x) :
    CecFloor (rosenbrock c o m flag x) (CecAt c o x) 0 := by
  obtain ⟨y, ey, hy⟩ := cec13_shift h
  obtain ⟨z, ez, hz⟩ := cec13_turn1 flag (fun i => y i * 2.048 / 100) h
  refine ⟨_, by simp only [rosenbrock, ey, ez, Outcome.bind_ok]; rfl, ?_, ?_⟩
  · rw [neg_zero]
    refine cec13_acc_nonneg (fun i _ => add_nonneg ?_ (mul_self_nonneg _))
    rw [mul_assoc]
    exact mul_nonneg (by norm_num) (mul_self_nonneg _)
  · intro hp
    have h0 := hz (fun i hi => by simp [hy hp i hi])
    exact le_of_eq (cec13_acc_zero (fun i hi => by rw [h0 i (by omega), h0 (i + 1) (by omega)]; norm_num))

theorem cec13_schafferF7 {c : Ctx} {o m : Nat} {x : List ℝ} (flag : Bool) (h : CecFit c o m x) :
    CecFloor (schafferF7 c o m flag x) (CecAt c o x) 0 := by
  obtain ⟨y, ey, hy⟩ := cec13_shift h
  obtain ⟨z, ez, hz⟩ := cec13_turn1 flag y h
  obtain ⟨w, ew, hw⟩ := cec13_turn2 flag (fun i => asy c 0.5 z y i * (10 : ℝ) ^ (ratio c i / 2)) h
  refine ⟨_, by simp only [schafferF7, ey, ez, ew, Outcome.bind_ok]; rfl, ?_, ?_⟩
  · rw [neg_zero]
    have : (2 : ℝ) ≤ c.nx := by exact_mod_cast h.two
    exact div_nonneg (div_nonneg (mul_self_nonneg _) (by linarith)) (by linarith)
  · intro hp
    have h0 := hw (cec13_scale _ (cec13_asy (hz (hy hp)) (hy hp)))
    rw [cec13_acc_zero (fun i hi => by
      rw [h0 i (by omega), h0 (i + 1) (by omega)]
      norm_num)]
    norm_num

theorem cec13_ackley {c : Ctx} {o m : Nat} {x : List ℝ} (flag : Bool) (h : CecFit c o m x) :
    CecFloor (ackley c o m flag x) (CecAt c o x) 0 := by
  obtain ⟨y, ey, hy⟩ := cec13_shift h
  obtain ⟨z, ez, hz⟩ := cec13_turn1 flag y h
  obtain ⟨w, ew, hw⟩ := cec13_turn2 flag (fun i => asy c 0.5 z y i * (10 : ℝ) ^ (ratio c i / 2)) h
  have hn : (2 : ℝ) ≤ c.nx := by exact_mod_cast h.two
  refine ⟨_, by simp only [ackley, ey, ez, ew, Outcome.bind_ok]; rfl, ?_, ?_⟩
  · have h1 : Real.exp (-0.2 * Real.sqrt (acc c.nx (fun i => w i * w i) / c.nx)) ≤ 1 := by
      rw [Real.exp_le_one_iff]
      have := Real.sqrt_nonneg (acc c.nx (fun i => w i * w i) / c.nx)
      linarith
    have h2 : Real.exp (acc c.nx (fun i => Real.cos (2 * Real.pi * w i)) / c.nx) ≤ Real.exp 1 := by
      rw [Real.exp_le_exp, div_le_one (by linarith)]
      have := cec13_acc_le (n := c.nx) (g := fun i => Real.cos (2 * Real.pi * w i)) (h := fun _ => 1) (fun i _ => Real.cos_le_one _)
      rw [cec13_acc_const] at this
      linarith
    linarith
  · intro hp
    have h0 := hw (cec13_scale _ (cec13_asy (hz (hy hp)) (hy hp)))
    rw [cec13_acc_zero (g := fun i => w i * w i) (fun i hi => by rw [h0 i hi]; ring),
      cec13_acc_congr (g := fun i => Real.cos (2 * Real.pi * w i)) (h := fun _ => 1) (fun i hi => by rw [h0 i hi]; simp),
      cec13_acc_const, mul_one, div_self (by linarith)]
    simp

theorem cec13_cosOdd (j : Nat) : Real.cos (2 * Real.pi * (3 : ℝ) ^ j * 0.5) = -1 := by
  have h : ∃ k : Nat, (3 : ℕ) ^ j = 2 * k + 1 := by
    obtain ⟨k, hk⟩ := (Odd.pow (by decide : Odd 3) : Odd ((3 : ℕ) ^ j))
    exact ⟨k, hk⟩
  obtain ⟨k, hk⟩ := h
  have hk' : (3 : ℝ) ^ j = 2 * k + 1 := by exact_mod_cast hk
  rw [hk', show 2 * Real.pi * (2 * (k : ℝ) + 1) * 0.5 = Real.pi + k * (2 * Real.pi) by ring, Real.cos_add_nat_mul_two_pi, Real.cos_pi]

theorem cec13_wei (t : ℝ) : wei 0.5 ≤ wei t := by
  unfold wei
  refine cec13_acc_le (fun j _ => ?_)
  rw [cec13_cosOdd]
  exact mul_le_mul_of_nonneg_left (Real.neg_one_le_cos _) (by positivity)

theorem cec13_weierstrass {c : Ctx} {o m : Nat} {x : List ℝ} (flag : Bool) (h : CecFit c o m x) :
    CecFloor (weierstrass c o m flag x) (CecAt c o x) 0 := by
  obtain ⟨y, ey, hy⟩ := cec13_shift h
  obtain ⟨z, ez, hz⟩ := cec13_turn1 flag (fun i => y i * 0.5 / 100) h
  obtain ⟨w, ew, hw⟩ := cec13_turn2 flag (fun i => asy c 0.5 z (fun i => y i * 0.5 / 100) i * (10 : ℝ) ^ (ratio c i / 2)) h
  refine ⟨_, by simp only [weierstrass, ey, ez, ew, Outcome.bind_ok]; rfl, ?_, ?_⟩
  · have := cec13_acc_le (n := c.nx) (g := fun _ => wei 0.5) (h := fun i => wei (w i + 0.5)) (fun i _ => cec13_wei _)
    rw [cec13_acc_const] at this
    linarith
  · intro hp
    have hs : CecZed c.nx (fun i => y i * 0.5 / 100) := fun i hi => by simp [hy hp i hi]
    have h0 := hw (cec13_scale _ (cec13_asy (hz hs) hs))
    rw [cec13_acc_congr (g := fun i => wei (w i + 0.5)) (h := fun _ => wei 0.5) (fun i hi => by rw [h0 i hi, zero_add]), cec13_acc_const]
    linarith

theorem cec13_griewank {c : Ctx} {o m : Nat} {x : List ℝ} (flag : Bool) (h : CecFit c o m x) :
    CecFloor (griewank c o m flag x) (CecAt c o x) 0 := by
  obtain ⟨y, ey, hy⟩ := cec13_shift h
  obtain ⟨z, ez, hz⟩ := cec13_turn1 flag (fun i => y i * 600 / 100) h
  refine ⟨_, by simp only [griewank, ey, ez, Outcome.bind_ok]; rfl, ?_, ?_⟩
  · rw [cec13_prod]
    have h1 : 0 ≤ acc c.nx (fun i => z i * (100 : ℝ) ^ (ratio c i / 2) * (z i * (100 : ℝ) ^ (ratio c i / 2))) :=
      cec13_acc_nonneg (fun i _ => mul_self_nonneg _)
    have h2 : ∏ i ∈ Finset.range c.nx, Real.cos (z i * (100 : ℝ) ^ (ratio c i / 2) / Real.sqrt (1 + i)) ≤ 1 := by
      refine le_trans (le_abs_self _) ?_
      rw [Finset.abs_prod]
      exact Finset.prod_le_one (fun i _ => abs_nonneg _) (fun i _ => Real.abs_cos_le_one _)
    linarith
  · intro hp
    have h0 := hz (fun i hi => by simp [hy hp i hi])
    rw [cec13_prod, cec13_acc_zero (fun i hi => by rw [h0 i hi]; ring), Finset.prod_eq_one (fun i hi => by
      rw [h0 i (Finset.mem_range.1 hi)]; simp)]
    norm_num

theorem cec13_rasTerm (t : ℝ) : 0 ≤ t * t - 10 * Real.cos (2 * Real.pi * t) + 10 := by
  have := Real.cos_le_one (2 * Real.pi * t)
  have := mul_self_nonneg t
  linarith

theorem cec13_tail {c : Ctx} {o m : Nat} {x : List ℝ} (flag : Bool) (z : Vec) (h : CecFit c o m x) :
    CecFloor (rastriginTail c m flag z) (CecZed c.nx z) 0 := by
  obtain ⟨w, ew, hw⟩ := cec13_turn2 flag (asy c 0.2 (osz c z) z) h
  obtain ⟨u, eu, hu⟩ := cec13_turn1 flag (fun i => w i * (10 : ℝ) ^ (ratio c i / 2)) h
  refine ⟨_, by simp only [rastriginTail, ew, eu, Outcome.bind_ok]; rfl, ?_, ?_⟩
  · rw [neg_zero]
    exact cec13_acc_nonneg (fun i _ => cec13_rasTerm _)
  · intro hp
    have h0 := hu (cec13_scale _ (hw (cec13_asy (cec13_osz hp) hp)))
    exact le_of_eq (cec13_acc_zero (fun i hi => by rw [h0 i hi]; simp))

theorem cec13_rastrigin {c : Ctx} {o m : Nat} {x : List ℝ} (flag : Bool) (h : CecFit c o m x) :
    CecFloor (rastrigin c o m flag x) (CecAt c o x) 0 := by
  obtain ⟨y, ey, hy⟩ := cec13_shift h
  obtain ⟨z, ez, hz⟩ := cec13_turn1 flag (fun i => y i * 5.12 / 100) h
  obtain ⟨v, ev, h1, h2⟩ := cec13_tail flag z h
  refine ⟨v, by simp only [rastrigin, ey, ez, ev, Outcome.bind_ok], h1, ?_⟩
  intro hp
  exact h2 (hz (fun i hi => by simp [hy hp i hi]))

theorem cec13_stepRastrigin {c : Ctx} {o m : Nat} {x : List ℝ} (flag : Bool) (h : CecFit c o m x) :
    CecFloor (stepRastrigin c o m flag x) (CecAt c o x) 0 := by
  obtain ⟨y, ey, hy⟩ := cec13_shift h
  obtain ⟨z, ez, hz⟩ := cec13_turn1 flag (fun i => y i * 5.12 / 100) h
  obtain ⟨v, ev, h1, h2⟩ := cec13_tail flag (fun i => if 0.5 < |z i| then (⌊2 * z i + 0.5⌋ : ℝ) / 2 else z i) h
  refine ⟨v, by simp only [stepRastrigin, ey, ez, ev, Outcome.bind_ok], h1, ?_⟩
  intro hp
  have h0 := hz (fun i hi => by simp [hy hp i hi])
  refine h2 (fun i hi => ?_)
  show (if 0.5 < |z i| then (⌊2 * z i + 0.5⌋ : ℝ) / 2 else z i) = 0
  rw [h0 i hi, abs_zero, if_neg (by norm_num)]

theorem cec13_kat_nonneg (t : ℝ) : 0 ≤ kat t := by
  unfold kat
  exact cec13_acc_nonneg (fun j _ => by positivity)

theorem cec13_kat_zero : kat 0 = 0 := by
  unfold kat
  refine cec13_acc_zero (fun j _ => ?_)
  have : ⌊(0.5 : ℝ)⌋ = 0 := by rw [Int.floor_eq_zero_iff]; norm_num
  rw [mul_zero, zero_add, this]; simp

theorem cec13_katsuura {c : Ctx} {o m : Nat} {x : List ℝ} (flag : Bool) (h : CecFit c o m x) :
    CecFloor (katsuura c o m flag x) (CecAt c o x) 0 := by
  obtain ⟨y, ey, hy⟩ := cec13_shift h
  obtain ⟨z, ez, hz⟩ := cec13_turn1 flag (fun i => y i * (5 / 100)) h
  obtain ⟨w, ew, hw⟩ := cec13_turn2 flag (fun i => z i * (100 : ℝ) ^ (ratio c i / 2)) h
  refine ⟨_, by simp only [katsuura, ey, ez, ew, Outcome.bind_ok]; rfl, ?_, ?_⟩
  · rw [cec13_prod]
    have h1 : 1 ≤ ∏ i ∈ Finset.range c.nx, (1 + ((i : ℝ) + 1) * kat (w i)) ^ (10 / (c.nx : ℝ) ^ (1.2 : ℝ)) := by
      have H := Finset.prod_le_prod (s := Finset.range c.nx) (f := fun _ => (1 : ℝ))
        (g := fun (i : Nat) => (1 + ((i : ℝ) + 1) * kat (w i)) ^ (10 / (c.nx : ℝ) ^ (1.2 : ℝ))) (fun i _ => by norm_num) (fun i _ => by
        refine Real.one_le_rpow ?_ (by positivity)
        have := mul_nonneg (by positivity : 0 ≤ (i : ℝ) + 1) (cec13_kat_nonneg (w i))
        linarith)
      rwa [Finset.prod_const_one] at H
    have h2 : (0 : ℝ) ≤ 10 / c.nx / c.nx := by positivity
    have := mul_le_mul_of_nonneg_right h1 h2
    linarith
  · intro hp
    have h0 := hw (cec13_scale _ (hz (cec13_scale _ (hy hp))))
    rw [cec13_prod, Finset.prod_eq_one (fun i hi => by
      rw [h0 i (Finset.mem_range.1 hi), cec13_kat_zero, mul_zero, add_zero, Real.one_rpow])]
    linarith

theorem cec13_biScale {n : Nat} (h : 2 ≤ n) : 0 ≤ 1 - 1 / (2 * ((n : ℝ) + 20) ^ (0.5 : ℝ) - 8.2) := by
  have hn : (2 : ℝ) ≤ n := by exact_mod_cast h
  have h1 : 4.6 ≤ ((n : ℝ) + 20) ^ (0.5 : ℝ) := by
    rw [show (0.5 : ℝ) = 1 / 2 by norm_num, ← Real.sqrt_eq_rpow]
    exact Real.le_sqrt_of_sq_le (by norm_num; linarith)
  rw [sub_nonneg, div_le_one (by linarith)]
  linarith

theorem cec13_ite {a b : ℝ} (ha : 0 ≤ a) (hb : 0 ≤ b) : 0 ≤ if a < b then a else b := by
  split <;> assumption

theorem cec13_biRastrigin {c : Ctx} {o m : Nat} {x : List ℝ} (flag : Bool) (h : CecFit c o m x) :
    CecFloor (biRastrigin c o m flag x) (CecAt c o x) 0 := by
  obtain ⟨y, ey, hy⟩ := cec13_shift h
  obtain ⟨z, ez, hz⟩ := cec13_turn1 flag
    (fun i => if entry c.os (o + i) < 0 then 2 * (y i * (10 / 100)) * (-1) else 2 * (y i * (10 / 100))) h
  obtain ⟨w, ew, hw⟩ := cec13_turn2 flag (fun i => z i * (100 : ℝ) ^ (ratio c i / 2)) h
  have hs := cec13_biScale h.two
  have hn : (2 : ℝ) ≤ c.nx := by exact_mod_cast h.two
  refine ⟨_, by simp only [biRastrigin, ey, ez, ew, Outcome.bind_ok]; rfl, ?_, ?_⟩
  · rw [neg_zero]
    refine add_nonneg ?_ ?_
    · exact cec13_ite (cec13_acc_nonneg (fun i _ => mul_self_nonneg _))
        (add_nonneg (mul_nonneg (cec13_acc_nonneg (fun i _ => mul_self_nonneg _)) hs) (by linarith))
    · have := cec13_acc_le (n := c.nx) (g := fun i => Real.cos (2 * Real.pi * w i)) (h := fun _ => 1) (fun i _ => Real.cos_le_one _)
      rw [cec13_acc_const] at this
      linarith
  · intro hp
    have ht : CecZed c.nx (fun i => if entry c.os (o + i) < 0 then 2 * (y i * (10 / 100)) * (-1) else 2 * (y i * (10 / 100))) := by
      intro i hi
      simp [hy hp i hi]
    have h0 := hw (cec13_scale _ (hz ht))
    have e1 : acc c.nx (fun i => Real.cos (2 * Real.pi * w i)) = c.nx := by
      rw [cec13_acc_congr (g := fun i => Real.cos (2 * Real.pi * w i)) (h := fun _ => 1) (fun i hi => by rw [h0 i hi]; simp), cec13_acc_const]
      ring
    have e2 : acc c.nx (fun i =>
        ((if entry c.os (o + i) < 0 then 2 * (y i * (10 / 100)) * (-1) else 2 * (y i * (10 / 100))) + 2.5 - 2.5)
          * ((if entry c.os (o + i) < 0 then 2 * (y i * (10 / 100)) * (-1) else 2 * (y i * (10 / 100))) + 2.5 - 2.5)) = 0 := by
      refine cec13_acc_zero (fun i hi => ?_)
      have := ht i hi
      simp only at this
      rw [this]; ring
    rw [e1, e2, if_pos]
    · linarith
    · have := mul_nonneg (cec13_acc_nonneg (n := c.nx) (g := fun i =>
        ((if entry c.os (o + i) < 0 then 2 * (y i * (10 / 100)) * (-1) else 2 * (y i * (10 / 100))) + 2.5
          - -((((2.5 : ℝ) * 2.5 - 1) / (1 - 1 / (2 * ((c.nx : ℝ) + 20) ^ (0.5 : ℝ) - 8.2))) ^ (0.5 : ℝ)))
          * ((if entry c.os (o + i) < 0 then 2 * (y i * (10 / 100)) * (-1) else 2 * (y i * (10 / 100))) + 2.5
          - -((((2.5 : ℝ) * 2.5 - 1) / (1 - 1 / (2 * ((c.nx : ℝ) + 20) ^ (0.5 : ℝ) - 8.2))) ^ (0.5 : ℝ))))
        (fun i _ => mul_self_nonneg _)) hs
      linarith

theorem cec13_grTerm_nonneg (a b : ℝ) : 0 ≤ grTerm a b := by
  unfold grTerm
  have h1 := Real.cos_le_one (100 * (a * a - b) * (a * a - b) + (a - 1) * (a - 1))
  have h2 := mul_self_nonneg (100 * (a * a - b) * (a * a - b) + (a - 1) * (a - 1))
  simp only
  linarith

theorem cec13_grTerm_one : grTerm 1 1 = 0 := by
  unfold grTerm; norm_num

theorem cec13_grieRosen {c : Ctx} {o m : Nat} {x : List ℝ} (flag : Bool) (h : CecFit c o m x) :
    CecFloor (grieRosen c o m flag x) (CecAt c o x) 0 := by
  obtain ⟨y, ey, hy⟩ := cec13_shift h
  obtain ⟨z, ez, -⟩ := cec13_turn1 flag (fun i => y i * 5 / 100) h
  refine ⟨_, by simp only [grieRosen, ey, ez, Outcome.bind_ok]; rfl, ?_, ?_⟩
  · rw [neg_zero]
    exact add_nonneg (cec13_acc_nonneg (fun i _ => cec13_grTerm_nonneg _ _)) (cec13_grTerm_nonneg _ _)
  · intro hp
    have h0 := hy hp
    have h2 := h.two
    rw [cec13_acc_zero (fun i hi => by
      rw [h0 i (by omega), h0 (i + 1) (by omega), zero_mul, zero_div, zero_add, cec13_grTerm_one]), h0 0 (by omega), h0 (c.nx - 1) (by omega),
      zero_mul, zero_div, zero_add, zero_add, cec13_grTerm_one]

theorem cec13_esTerm_nonneg (a b : ℝ) : 0 ≤ esTerm a b := by
  unfold esTerm
  simp only
  set t := Real.sin (Real.sqrt (a * a + b * b))
  have hu : 1 ≤ 1 + 0.001 * (a * a + b * b) := by nlinarith [mul_self_nonneg a, mul_self_nonneg b]
  set u := 1 + 0.001 * (a * a + b * b)
  have hu2 : 1 ≤ u * u := by nlinarith
  have : -0.5 ≤ (t * t - 0.5) / (u * u) := by
    rw [le_div_iff₀ (by linarith)]
    nlinarith [mul_self_nonneg t]
  linarith

theorem cec13_esTerm_zero : esTerm 0 0 = 0 := by
  unfold esTerm; norm_num

theorem cec13_escaffer6 {c : Ctx} {o m : Nat} {x : List ℝ} (flag : Bool) (h : CecFit c o m x) :
    CecFloor (escaffer6 c o m flag x) (CecAt c o x) 0 := by
  obtain ⟨y, ey, hy⟩ := cec13_shift h
  obtain ⟨z, ez, hz⟩ := cec13_turn1 flag y h
  obtain ⟨w, ew, hw⟩ := cec13_turn2 flag (asy c 0.5 z y) h
  refine ⟨_, by simp only [escaffer6, ey, ez, ew, Outcome.bind_ok]; rfl, ?_, ?_⟩
  · rw [neg_zero]
    exact add_nonneg (cec13_acc_nonneg (fun i _ => cec13_esTerm_nonneg _ _)) (cec13_esTerm_nonneg _ _)
  · intro hp
    have h0 := hw (cec13_asy (hz (hy hp)) (hy hp))
    have h2 := h.two
    rw [cec13_acc_zero (fun i hi => by rw [h0 i (by omega), h0 (i + 1) (by omega), cec13_esTerm_zero]), h0 0 (by omega), h0 (c.nx - 1) (by omega),
      cec13_esTerm_zero]
    norm_num

theorem cec13_schwBest : 418.9828872724338 - 0.000001 ≤ 420.9687462275036 * Real.sin (Real.sqrt |(420.9687462275036 : ℝ)|) := by
  obtain ⟨c1, c2⟩ := schwC
  rw [abs_of_nonneg (by norm_num), schwSin]
  set t := Real.sqrt 420.9687462275036 with ht
  have tl : 20.517522906 ≤ t := Real.le_sqrt_of_sq_le (by norm_num)
  have tu : t ≤ 20.517522907 := by rw [ht, Real.sqrt_le_left (by norm_num)]; norm_num
  set u := t - 13 * Real.pi / 2 with hu
  have u0 : 0.097170656 ≤ u := by linarith
  have u1 : u ≤ 0.097170667 := by linarith
  have hc := schwCos_ge (u := u) (by linarith) (by linarith)
  have hb : u / 2 - (u / 2) ^ 3 / 6 + (u / 2) ^ 5 / 120 ≤ 0.048566225 := by
    have p3 : 0.097170656 ^ 3 ≤ u ^ 3 := pow_le_pow_left₀ (by norm_num) u0 3
    have p5 : u ^ 5 ≤ 0.097170667 ^ 5 := pow_le_pow_left₀ (by linarith) u1 5
    have e : u / 2 - (u / 2) ^ 3 / 6 + (u / 2) ^ 5 / 120 = u / 2 - u ^ 3 / 48 + u ^ 5 / 3840 := by ring
    rw [e]; norm_num at p3 p5 ⊢; linarith
  have hn : 0 ≤ u / 2 - (u / 2) ^ 3 / 6 + (u / 2) ^ 5 / 120 := by
    have p3 : u ^ 3 ≤ 0.1 ^ 3 := pow_le_pow_left₀ (by linarith) (by linarith) 3
    have p5 : 0 ≤ u ^ 5 := by positivity
    have e : u / 2 - (u / 2) ^ 3 / 6 + (u / 2) ^ 5 / 120 = u / 2 - u ^ 3 / 48 + u ^ 5 / 3840 := by ring
    rw [e]; norm_num at p3 ⊢; linarith
  have hb2 := pow_le_pow_left₀ hn hb 2
  norm_num at hb2 ⊢
  linarith

theorem cec13_half (t : ℝ) : t ^ (0.5 : ℝ) = Real.sqrt t := by
  rw [Real.sqrt_eq_rpow]; norm_num

theorem cec13_fmod (t : ℝ) : 0 ≤ fmod500 t ∧ fmod500 t < 500 := by
  unfold fmod500
  have h1 := Int.floor_le (t / 500)
  have h2 := Int.lt_floor_add_one (t / 500)
  constructor
  · linarith
  · linarith

theorem cec13_schw {t : ℝ} (hl : -500 ≤ t) (hu : t ≤ 500) : t * Real.sin (Real.sqrt |t|) ≤ 418.9828872724338 + 0.000002 := by
  have h := schwTerm hl hu
  have : 0 ≤ min 1 ((t - 420.9687) ^ 2) := le_min (by norm_num) (sq_nonneg _)
  linarith

theorem cec13_schwefelTerm (c : Ctx) (z : ℝ) : -(418.9828872724338 + 0.000002) ≤ schwefelTerm c z := by
  unfold schwefelTerm
  split
  · obtain ⟨f1, f2⟩ := cec13_fmod z
    have h := cec13_schw (t := 500 - fmod500 z) (by linarith) (by linarith)
    rw [abs_of_nonneg (by linarith)] at h
    rw [cec13_half]
    have : 0 ≤ (z - 500) / 100 * ((z - 500) / 100) / c.nx := div_nonneg (mul_self_nonneg _) (Nat.cast_nonneg _)
    linarith
  · split
    · obtain ⟨f1, f2⟩ := cec13_fmod |z|
      generalize |z| = a at f1 f2 ⊢
      have h := cec13_schw (t := -500 + fmod500 a) (by linarith) (by linarith)
      rw [abs_of_nonpos (by linarith), show -(-500 + fmod500 a) = 500 - fmod500 a by ring] at h
      rw [cec13_half]
      have : 0 ≤ (z + 500) / 100 * ((z + 500) / 100) / c.nx := div_nonneg (mul_self_nonneg _) (Nat.cast_nonneg _)
      linarith
    · rw [cec13_half]
      have h := cec13_schw (t := z) (by linarith) (by linarith)
      linarith

theorem cec13_schwefelTerm_best (c : Ctx) : schwefelTerm c (0 + 420.9687462275036) ≤ -(418.9828872724338 - 0.000001) := by
  unfold schwefelTerm
  rw [zero_add, if_neg (by norm_num), if_neg (by norm_num), cec13_half]
  have := cec13_schwBest
  linarith

theorem cec13_schwefel {c : Ctx} {o m : Nat} {x : List ℝ} (flag : Bool) (h : CecFit c o m x) :
    CecFloor (schwefel c o m flag x) (CecAt c o x) (0.000002 * c.nx) := by
  obtain ⟨y, ey, hy⟩ := cec13_shift h
  obtain ⟨z, ez, hz⟩ := cec13_turn1 flag (fun i => y i * (1000 / 100)) h
  refine ⟨_, by simp only [schwefel, ey, ez, Outcome.bind_ok]; rfl, ?_, ?_⟩
  · have := cec13_acc_le (n := c.nx) (g := fun _ => -(418.9828872724338 + 0.000002))
      (h := fun i => schwefelTerm c (z i * (10 : ℝ) ^ (ratio c i / 2) + 420.9687462275036)) (fun i _ => cec13_schwefelTerm _ _)
    rw [cec13_acc_const] at this
    linarith
  · intro hp
    have h0 := hz (cec13_scale _ (hy hp))
    have := cec13_acc_le (n := c.nx) (h := fun _ => -(418.9828872724338 - 0.000001))
      (g := fun i => schwefelTerm c (z i * (10 : ℝ) ^ (ratio c i / 2) + 420.9687462275036)) (fun i hi => by
        show schwefelTerm c (z i * (10 : ℝ) ^ (ratio c i / 2) + 420.9687462275036) ≤ _
        rw [h0 i hi, zero_mul]; exact cec13_schwefelTerm_best c)
    rw [cec13_acc_const] at this
    have hn : (0 : ℝ) ≤ c.nx := Nat.cast_nonneg _
    linarith

/-! ## composition -/

theorem cec13_weight_pos (c : Ctx) (x : List ℝ) (d : ℝ) (i : Nat) : 0 < weight c x d i := by
  unfold weight
  have h0 : 0 ≤ acc c.nx (fun j => (entry x j - entry c.os (i * c.nx + j)) ^ 2) := cec13_acc_nonneg (fun _ _ => sq_nonneg _)
  simp only
  split
  · rename_i hne
    have hp : 0 < acc c.nx (fun j => (entry x j - entry c.os (i * c.nx + j)) ^ 2) := lt_of_le_of_ne h0 (Ne.symm hne)
    exact mul_pos (Real.rpow_pos_of_pos (by positivity) _) (Real.exp_pos _)
  · norm_num

theorem cec13_foldMax {w : Nat → ℝ} (hw : ∀ i, 0 < w i) (l : List Nat) (a : ℝ) (ha : 0 ≤ a) (hl : l ≠ [] ∨ 0 < a) :
    0 < l.foldl (fun a i => if a < w i then w i else a) a := by
  induction l generalizing a with
  | nil => simpa using hl
  | cons i l ih =>
    rw [List.foldl_cons]
    by_cases h : a < w i
    · rw [if_pos h]; exact ih _ (hw i).le (Or.inr (hw i))
    · rw [if_neg h]
      have := hw i
      exact ih _ ha (Or.inr (by linarith))

/-- the weighted mean that `cf_cal` computes -/
theorem cec13_cfCal {c : Ctx} {x delta bias fit : List ℝ} (hx : c.nx ≤ x.length) (ho : fit.length * c.nx ≤ c.os.length) (hf : fit ≠ []) :
    cfCal c x delta bias fit = .ok ((∑ i ∈ Finset.range fit.length, weight c x (entry delta i) i * (entry fit i + entry bias i))
      / ∑ i ∈ Finset.range fit.length, weight c x (entry delta i) i) := by
  unfold cfCal
  rw [if_pos ⟨hx, ho⟩]
  have hm := cec13_foldMax (w := fun i => weight c x (entry delta i) i) (fun i => cec13_weight_pos _ _ _ _) (List.range fit.length) 0 le_rfl
    (Or.inl (by simpa using hf))
  simp only [ne_of_gt hm, if_false]
  rw [cec13_acc, cec13_acc, Finset.sum_div]
  refine congrArg Outcome.ok (Finset.sum_congr rfl (fun i _ => ?_))
  ring

theorem cec13_mean {n : Nat} (hn : 0 < n) {w g : Nat → ℝ} (hw : ∀ i, 0 < w i) {k : ℝ} (hg : ∀ i < n, k ≤ g i) :
    k ≤ (∑ i ∈ Finset.range n, w i * g i) / ∑ i ∈ Finset.range n, w i := by
  have hs : 0 < ∑ i ∈ Finset.range n, w i := Finset.sum_pos (fun i _ => hw i) ⟨0, Finset.mem_range.2 hn⟩
  rw [le_div_iff₀ hs, Finset.mul_sum]
  refine Finset.sum_le_sum (fun i hi => ?_)
  rw [mul_comm]
  exact mul_le_mul_of_nonneg_left (hg i (Finset.mem_range.1 hi)) (hw i).le

/-- what is needed of a component -/
structure CecPart (p : Part) : Prop where
  low : 0 ≤ p.num / p.den
  floor : ∀ (c : Ctx) (o m : Nat) (x : List ℝ), CecFit c o m x →
    ∃ e, CecFloor (p.f c o m p.flag x) (CecAt c o x) e ∧ p.num / p.den * e ≤ 0.000005 * c.nx

theorem cec13_fits {c : Ctx} {x : List ℝ} (hn : 2 ≤ c.nx) (hx : c.nx ≤ x.length) (ps : List Part) (i : Nat) (hp : ∀ p ∈ ps, CecPart p)
    (ho : (i + ps.length) * c.nx ≤ c.os.length) (hm : (i + ps.length + 1) * (c.nx * c.nx) ≤ c.mr.length) :
    ∃ vs, fits c x i ps = .ok vs ∧ vs.length = ps.length ∧ ∀ j < ps.length, -(0.000005 * (c.nx : ℝ)) ≤ entry vs j := by
  induction ps generalizing i with
  | nil => exact ⟨[], rfl, rfl, by simp⟩
  | cons p ps ih =>
    rw [List.length_cons] at ho hm
    have hfit : CecFit c (i * c.nx) (i * c.nx * c.nx) x := by
      refine ⟨hn, hx, ?_, ?_⟩
      · have : (i + 1) * c.nx ≤ (i + (ps.length + 1)) * c.nx := Nat.mul_le_mul_right _ (by omega)
        rw [Nat.add_mul, Nat.one_mul] at this
        omega
      · have : (i + 2) * (c.nx * c.nx) ≤ (i + (ps.length + 1) + 1) * (c.nx * c.nx) := Nat.mul_le_mul_right _ (by omega)
        rw [Nat.add_mul, ← Nat.mul_assoc] at this
        omega
    obtain ⟨h1, h3⟩ := hp p (by simp)
    obtain ⟨e, ⟨v, ev, hv, -⟩, he⟩ := h3 c _ _ x hfit
    obtain ⟨vs, evs, hl, hvs⟩ := ih (i + 1) (fun q hq => hp q (by simp [hq])) (by rw [show i + 1 + ps.length = i + (ps.length + 1) by omega]; exact ho)
      (by rw [show i + 1 + ps.length = i + (ps.length + 1) by omega]; exact hm)
    refine ⟨p.num * v / p.den :: vs, by simp only [fits, ev, evs, Outcome.bind_ok], by simp [hl], ?_⟩
    intro j hj
    cases j with
    | zero =>
      show _ ≤ p.num * v / p.den
      rw [mul_div_right_comm]
      have a1 := mul_le_mul_of_nonneg_left hv h1
      linarith
    | succ j => exact hvs j (by simpa using hj)

theorem cec13_part {f : Ctx → Nat → Nat → Bool → List ℝ → Outcome ℝ} {flag : Bool} {num den : ℝ}
    (hf : ∀ {c : Ctx} {o m : Nat} {x : List ℝ} (flag : Bool), CecFit c o m x → CecFloor (f c o m flag x) (CecAt c o x) 0) (h : 0 ≤ num / den) :
    CecPart ⟨f, flag, num, den⟩ :=
  ⟨h, fun c o m x hc => ⟨0, hf flag hc, by rw [mul_zero]; positivity⟩⟩

theorem cec13_partSchwefel {flag : Bool} {num den : ℝ} (h : 0 ≤ num / den) (h' : num / den ≤ 2.5) : CecPart ⟨schwefel, flag, num, den⟩ :=
  ⟨h, fun c o m x hc => ⟨_, cec13_schwefel flag hc, by
    have := mul_le_mul_of_nonneg_right h' (by positivity : (0 : ℝ) ≤ 0.000002 * c.nx)
    show num / den * _ ≤ _
    linarith⟩⟩

section
attribute [local irreducible] sphere ellips bentCigar discus difPowers rosenbrock schafferF7 ackley weierstrass griewank rastrigin stepRastrigin
  schwefel katsuura biRastrigin grieRosen escaffer6

theorem cec13_comps : ∀ q ∈ comps, q.parts ≠ [] ∧ q.parts.length ≤ 5 ∧ q.parts.length = q.bias.length ∧ (∀ b ∈ q.bias, 0 ≤ b) ∧ ∀ p ∈ q.parts, CecPart p := by
  intro q hq
  simp only [comps, List.mem_cons, List.not_mem_nil, or_false] at hq
  rcases hq with rfl | rfl | rfl | rfl | rfl | rfl | rfl | rfl <;>
  · refine ⟨by simp, by simp, by simp, by simp, ?_⟩
    simp only [List.mem_cons, List.not_mem_nil, or_false, forall_eq_or_imp, forall_eq]
    repeat' apply And.intro
    all_goals
      first
        | exact cec13_partSchwefel (by norm_num) (by norm_num)
        | exact cec13_part cec13_rosenbrock (by norm_num)
        | exact cec13_part cec13_difPowers (by norm_num)
        | exact cec13_part cec13_bentCigar (by norm_num)
        | exact cec13_part cec13_discus (by norm_num)
        | exact cec13_part cec13_sphere (by norm_num)
        | exact cec13_part cec13_rastrigin (by norm_num)
        | exact cec13_part cec13_weierstrass (by norm_num)
        | exact cec13_part cec13_ellips (by norm_num)
        | exact cec13_part cec13_griewank (by norm_num)
        | exact cec13_part cec13_grieRosen (by norm_num)
        | exact cec13_part cec13_schafferF7 (by norm_num)
        | exact cec13_part cec13_escaffer6 (by norm_num)

end

theorem cec13_entry_nonneg {l : List ℝ} (h : ∀ b ∈ l, 0 ≤ b) (i : Nat) : 0 ≤ entry l i := by
  unfold entry
  rw [List.getD_eq_getElem?_getD]
  cases e : l[i]? with
  | none => simp
  | some b => exact h b (List.mem_of_getElem? e)

theorem cec13_comp {c : Ctx} {x : List ℝ} (hn : 2 ≤ c.nx) (hx : c.nx ≤ x.length) (ho : 5 * c.nx ≤ c.os.length)
    (hm : 6 * (c.nx * c.nx) ≤ c.mr.length) {q : Comp} (hq : q ∈ comps) : ∃ v, comp c q x = .ok v ∧ -(0.000005 * (c.nx : ℝ)) ≤ v := by
  obtain ⟨h1, h2, h3, h4, h5⟩ := cec13_comps q hq
  obtain ⟨vs, evs, hl, hvs⟩ := cec13_fits hn hx q.parts 0 h5
    (le_trans (Nat.mul_le_mul_right _ (by omega)) ho) (le_trans (Nat.mul_le_mul_right _ (by omega)) hm)
  have hlen : vs.length * c.nx ≤ c.os.length := le_trans (Nat.mul_le_mul_right _ (by omega)) ho
  have hne : vs ≠ [] := by
    intro h
    rw [h] at hl
    exact h1 (List.eq_nil_of_length_eq_zero hl.symm)
  refine ⟨_, by simp only [comp, evs, Outcome.bind_ok]; exact cec13_cfCal hx hlen hne, ?_⟩
  refine cec13_mean (List.length_pos_of_ne_nil hne) (fun i => cec13_weight_pos _ _ _ _) (fun i hi => ?_)
  have := hvs i (by omega)
  have := cec13_entry_nonneg h4 i
  linarith

end Verif.Props
