import Verif.Proof.Cec2006
import Mathlib.Tactic.Linarith
import Mathlib.Tactic.FieldSimp
import Mathlib.Tactic.IntervalCases
import Mathlib.Analysis.MeanInequalities

/-!
# The CEC 2006 problems: minima of single problems
-/

set_option autoImplicit false

namespace Verif.Props

open Verif Verif.Cec06 Verif.Analytic Verif.Spec

/-! ## helpers -/

/-- the shape of one problem -/
def cecShape (id : Nat) : Bool :=
  match Cec06.construct id with
  | .ok p => p.wf && (List.range p.dim).all (fun i => decide (p.lb.getD i 0 ≤ p.ub.getD i 0))
  | _ => false

theorem cecShape_all : (List.range' 1 24).all cecShape = true := by decide +kernel

theorem cec_shape {id : Nat} {p : Cec06.Prob} (h : Cec06.construct id = .ok p) :
    p.wf = true ∧ (List.range p.dim).all (fun i => decide (p.lb.getD i 0 ≤ p.ub.getD i 0)) = true := by
  have hid : 1 ≤ id ∧ id ≤ 24 := by
    by_contra hc
    rw [Cec06.construct, if_pos (by omega)] at h; cases h
  have := List.all_eq_true.mp cecShape_all id (by rw [List.mem_range'_1]; omega)
  unfold cecShape at this
  rw [h] at this
  simpa only [Bool.and_eq_true] using this

theorem cec_lengths {id : Nat} {p : Cec06.Prob} (h : Cec06.construct id = .ok p) :
    p.con.length = p.nec + p.nic ∧ p.lb.length = p.dim ∧ p.ub.length = p.dim ∧ p.best.length = p.dim := by
  have := (cec_shape h).1
  simp only [Cec06.Prob.wf, Bool.and_eq_true, decide_eq_true_eq] at this
  exact ⟨this.1.1.1.2, this.1.1.2, this.1.2, this.2⟩

/-- the published value and the constraints at the best known point -/
def cecBest (t : ℚ) (q : Nat × ℚ) : Bool :=
  match Cec06.construct q.1 with
  | .ok p => match p.rat p.best with
    | some (g, cs) => decide (g - q.2 ≤ 1 / 10 ^ 9) && decide (-(1 / 10 ^ 9) ≤ g - q.2) &&
        cs.zipIdx.all (fun c => decide (c.1 ≤ t) && (decide (p.nec ≤ c.2) || decide (-t ≤ c.1)))
    | none => false
  | _ => false

theorem cecBest_all : published.all (cecBest (1 / 10 ^ 4 + 1 / 10 ^ 9)) = true := by decide +kernel

theorem feas_someVals {t : ℚ} {nec : Nat} {cs : List ℚ}
    (h : cs.zipIdx.all (fun c => decide (c.1 ≤ t) && (decide (nec ≤ c.2) || decide (-t ≤ c.1))) = true) :
    Feas (t : ℝ) nec (someVals cs) := by
  intro i c hc
  rw [someVals, List.getElem?_map] at hc
  cases hi : cs[i]? with
  | none => rw [hi] at hc; cases hc
  | some q =>
    rw [hi] at hc; cases hc
    have := List.all_eq_true.mp h (q, i) (by rw [List.mem_zipIdx_iff_getElem?]; exact hi)
    simp only [Bool.and_eq_true, Bool.or_eq_true, decide_eq_true_eq] at this
    refine ⟨q, rfl, by exact_mod_cast this.1, fun hn => ?_⟩
    rcases this.2 with h2 | h2
    · omega
    · exact_mod_cast h2

/-- a feasible point of a problem without partial operations -/
theorem cec_poly {id : Nat} {p : Cec06.Prob} (h : Cec06.construct id = .ok p) (ht : p.temps = []) (ho : p.obj.poly p.dim = true)
    (hc : p.con.all (fun e => e.poly p.dim) = true) {x : List ℝ} {f tol : ℝ} {cs : List (Option ℝ)} (hx : InBox p.lb p.ub x)
    (hf : Cec06.fitness p x = .ok (some f :: cs)) (hF : Feas tol p.nec cs) :
    f = p.obj.val x [] ∧ ∀ (i : Nat) (e : E), p.con[i]? = some e → e.val x [] ≤ tol ∧ (i < p.nec → -tol ≤ e.val x []) := by
  have hl : x.length = p.dim := by rw [hx.1, (cec_lengths h).2.1]
  rw [fitness_poly (cec_shape h).1 ht ho hc hl] at hf
  cases hf
  refine ⟨rfl, fun i e he => ?_⟩
  obtain ⟨v, hv, h1, h2⟩ := hF i (some (e.val x [])) (by rw [List.getElem?_map, he]; rfl)
  cases hv; exact ⟨h1, h2⟩

theorem g01_min {p : Cec06.Prob} (h : Cec06.construct 1 = .ok p) {x : List ℝ} {f : ℝ} {cs : List (Option ℝ)} (hx : InBox p.lb p.ub x)
    (hf : Cec06.fitness p x = .ok (some f :: cs)) (hF : Feas 0 p.nec cs) : -15 ≤ f := by
  have hp : p = _ := (Outcome.ok.inj h).symm
  obtain ⟨hobj, hcon⟩ := cec_poly h (by rw [hp]; rfl) (by rw [hp]; decide +kernel) (by rw [hp]; decide +kernel) hx hf hF
  have b := box_at hx
  rw [hp] at hobj hcon b
  have c6 := (hcon 6 _ rfl).1
  have c7 := (hcon 7 _ rfl).1
  have c8 := (hcon 8 _ rfl).1
  have b0 := b 0 0.0 1.0 rfl rfl
  have b1 := b 1 0.0 1.0 rfl rfl
  have b2 := b 2 0.0 1.0 rfl rfl
  have b3 := b 3 0.0 1.0 rfl rfl
  have b4 := b 4 0.0 1.0 rfl rfl
  have b5 := b 5 0.0 1.0 rfl rfl
  have b6 := b 6 0.0 1.0 rfl rfl
  have b7 := b 7 0.0 1.0 rfl rfl
  have b8 := b 8 0.0 1.0 rfl rfl
  have b12 := b 12 0.0 1.0 rfl rfl
  norm_num at b0 b1 b2 b3 b4 b5 b6 b7 b8 b12
  simp at c6 c7 c8
  rw [hobj]
  simp [obj01, List.range']
  norm_num at c6 c7 c8 ⊢
  nlinarith [mul_nonneg b0.1 (sub_nonneg.mpr b0.2), mul_nonneg b1.1 (sub_nonneg.mpr b1.2), mul_nonneg b2.1 (sub_nonneg.mpr b2.2),
    mul_nonneg b3.1 (sub_nonneg.mpr b3.2)]

theorem g24_core (a b : ℝ) (h0 : 0 ≤ a) (h3 : a ≤ 3) (c0 : -2 * a ^ 4 + 8 * a ^ 3 - 8 * a ^ 2 + b - 2 ≤ 0)
    (c1 : -4 * a ^ 4 + 32 * a ^ 3 - 88 * a ^ 2 + 96 * a + b - 36 ≤ 0) : -(55080132717 / 10000000000) ≤ -a - b := by
  rcases le_total a (23295201974776 / 10000000000000) with h | h
  · have hq : 0 ≤ 2 * a ^ 3 - 3.34095960504 * a ^ 2 + 0.2171671 * a + 1.5058951 := by
      nlinarith [mul_nonneg h0 (sq_nonneg (a - 1.08)), sq_nonneg (a - 1.08)]
    nlinarith [mul_nonneg (sub_nonneg.mpr h) hq]
  · have hq : 4 * a ^ 3 - 22.6819192101 * a ^ 2 + 35.1620208 * a - 13.089362 ≤ 0 := by
      nlinarith [mul_nonneg (sub_nonneg.mpr h) (sub_nonneg.mpr h3), mul_nonneg (mul_nonneg (sub_nonneg.mpr h) (sub_nonneg.mpr h3)) h0]
    nlinarith [mul_nonneg (sub_nonneg.mpr h) (neg_nonneg.mpr hq)]

theorem g23_core (a b c d e f g h q : ℝ) (hc : 0 ≤ c) (hd : 0 ≤ d) (hf : 0 ≤ f) (hg : 0 ≤ g) (he : e ≤ 100)
    (hh : h ≤ 200) (q1 : 1 / 100 ≤ q) (q2 : q ≤ 3 / 100)
    (c0 : a + b = c + d) (c1 : 3 / 100 * a + 1 / 100 * b = q * (c + d)) (c2 : c + f = e) (c3 : d + g = h)
    (c4 : q * c + 2 / 100 * f - 25 / 1000 * e ≤ 0) (c5 : q * d + 2 / 100 * g - 15 / 1000 * h ≤ 0) :
    -400 ≤ -9 * e - 15 * h + 6 * a + 16 * b + 10 * (f + g) := by
  have hab : 6 * a + 16 * b = 21 * (c + d) - 500 * (q * c) - 500 * (q * d) := by nlinarith
  subst c2 c3
  rw [show -9 * (c + f) - 15 * (d + g) + 6 * a + 16 * b + 10 * (f + g) = -9 * (c + f) - 15 * (d + g) + (6 * a + 16 * b) + 10 * (f + g) by ring, hab]
  rcases le_total q (15 / 1000) with hq | hq
  · have h1 : q * c ≤ 15 / 1000 * c := by nlinarith
    have h2 : 1 / 100 * d ≤ q * d := by nlinarith
    nlinarith
  · have h1 : 15 / 1000 * d ≤ q * d := by nlinarith
    have hg0 : g = 0 := by nlinarith
    subst hg0
    have h3 : (q - 15 / 1000) * d = 0 := by nlinarith
    rcases mul_eq_zero.mp h3 with h4 | h4
    · have h5 : q = 15 / 1000 := by linarith
      subst h5; linarith
    · subst h4
      have h2 : q * c ≤ 3 / 100 * c := by nlinarith
      linarith

theorem cec_prod10 (z : ℕ → ℝ) (hz : ∀ i, i < 10 → 0 ≤ z i) : ∏ i ∈ Finset.range 10, z i ≤ ((∑ i ∈ Finset.range 10, z i) / 10) ^ 10 := by
  have h := Real.geom_mean_le_arith_mean (Finset.range 10) (fun _ => 1) z (fun _ _ => zero_le_one) (by simp)
    (fun i hi => hz i (Finset.mem_range.mp hi))
  simp only [Real.rpow_one, Finset.sum_const, Finset.card_range, one_mul] at h
  have hp : 0 ≤ ∏ i ∈ Finset.range 10, z i := Finset.prod_nonneg (fun i hi => hz i (Finset.mem_range.mp hi))
  have h2 := pow_le_pow_left₀ (Real.rpow_nonneg hp _) h 10
  rw [← Real.rpow_natCast, ← Real.rpow_mul hp] at h2
  norm_num at h2
  exact_mod_cast h2

theorem g06_min {p : Cec06.Prob} (h : Cec06.construct 6 = .ok p) {x : List ℝ} {f : ℝ} {cs : List (Option ℝ)} (hx : InBox p.lb p.ub x)
    (hf : Cec06.fitness p x = .ok (some f :: cs)) (hF : Feas 0 p.nec cs) :
    (14.095 - 10 : ℝ) ^ 3 + (5 - Real.sqrt 17.280975 - 20) ^ 3 ≤ f := by
  have hp : p = _ := (Outcome.ok.inj h).symm
  obtain ⟨hobj, hcon⟩ := cec_poly h (by rw [hp]; rfl) (by rw [hp]; decide +kernel) (by rw [hp]; decide +kernel) hx hf hF
  rw [hp] at hobj hcon
  have c0 := (hcon 0 _ rfl).1
  have c1 := (hcon 1 _ rfl).1
  simp at c0 c1
  rw [hobj]
  simp only [obj06, val_add, val_pow, val_sub, val_sci, val_x]
  norm_num at c0 c1
  generalize at0 x 0 = a at *
  generalize at0 x 1 = b at *
  have h1 : (14.095 : ℝ) ≤ a := by nlinarith
  have h2 : (b - 5) ^ 2 ≤ 17.280975 := by nlinarith
  have h3 := (abs_le.mp (Real.abs_le_sqrt h2)).1
  have h4 : (5 - Real.sqrt 17.280975 - 20) ^ 3 ≤ (b - 20.0) ^ 3 := Odd.strictMono_pow (by decide) |>.monotone (by linarith)
  have h5 : (14.095 - 10 : ℝ) ^ 3 ≤ (a - 10.0) ^ 3 := Odd.strictMono_pow (by decide) |>.monotone (by linarith)
  linarith

theorem g11_min {p : Cec06.Prob} (h : Cec06.construct 11 = .ok p) {x : List ℝ} {f tol : ℝ} {cs : List (Option ℝ)} (hx : InBox p.lb p.ub x)
    (hf : Cec06.fitness p x = .ok (some f :: cs)) (hF : Feas tol p.nec cs) : 0.75 - tol ≤ f := by
  have hp : p = _ := (Outcome.ok.inj h).symm
  obtain ⟨hobj, hcon⟩ := cec_poly h (by rw [hp]; rfl) (by rw [hp]; decide +kernel) (by rw [hp]; decide +kernel) hx hf hF
  rw [hp] at hobj hcon
  have c0 := (hcon 0 _ rfl).1
  simp at c0
  rw [hobj]
  simp [obj11]
  norm_num at c0 ⊢
  nlinarith [sq_nonneg (at0 x 1 - 1 / 2)]

theorem g23_min {p : Cec06.Prob} (h : Cec06.construct 23 = .ok p) {x : List ℝ} {f : ℝ} {cs : List (Option ℝ)} (hx : InBox p.lb p.ub x)
    (hf : Cec06.fitness p x = .ok (some f :: cs)) (hF : Feas 0 p.nec cs) : -400 ≤ f := by
  have hp : p = _ := (Outcome.ok.inj h).symm
  obtain ⟨hobj, hcon⟩ := cec_poly h (by rw [hp]; rfl) (by rw [hp]; decide +kernel) (by rw [hp]; decide +kernel) hx hf hF
  have b := box_at hx
  rw [hp] at hobj hcon b
  have c0 := (hcon 0 _ rfl)
  have c1 := (hcon 1 _ rfl)
  have c2 := (hcon 2 _ rfl)
  have c3 := (hcon 3 _ rfl)
  have c4 := (hcon 4 _ rfl).1
  have c5 := (hcon 5 _ rfl).1
  have q8 := b 8 0.01 0.03 rfl rfl
  have b2 := b 2 0.0 100.0 rfl rfl
  have b3 := b 3 0.0 200.0 rfl rfl
  have b4 := b 4 0.0 100.0 rfl rfl
  have b5 := b 5 0.0 300.0 rfl rfl
  have b6 := b 6 0.0 100.0 rfl rfl
  have b7 := b 7 0.0 200.0 rfl rfl
  simp at c0 c1 c2 c3 c4 c5
  rw [hobj]
  simp [obj23]
  norm_num at c0 c1 c2 c3 c4 c5 q8 b2 b3 b4 b5 b6 b7 ⊢
  have := g23_core (at0 x 0) (at0 x 1) (at0 x 2) (at0 x 3) (at0 x 4) (at0 x 5) (at0 x 6) (at0 x 7) (at0 x 8) b2.1 b3.1 b5.1 b6.1 b4.2 b7.2
    (by linarith [q8.1]) (by linarith [q8.2]) (by linarith [c0.1, c0.2]) (by linarith [c1.1, c1.2]) (by linarith [c2.1, c2.2])
    (by linarith [c3.1, c3.2]) (by linarith) (by linarith)
  linarith

theorem g24_min {p : Cec06.Prob} (h : Cec06.construct 24 = .ok p) {x : List ℝ} {f : ℝ} {cs : List (Option ℝ)} (hx : InBox p.lb p.ub x)
    (hf : Cec06.fitness p x = .ok (some f :: cs)) (hF : Feas 0 p.nec cs) : -5.5080132717 ≤ f := by
  have hp : p = _ := (Outcome.ok.inj h).symm
  obtain ⟨hobj, hcon⟩ := cec_poly h (by rw [hp]; rfl) (by rw [hp]; decide +kernel) (by rw [hp]; decide +kernel) hx hf hF
  have b := box_at hx
  rw [hp] at hobj hcon b
  have c0 := (hcon 0 _ rfl).1
  have c1 := (hcon 1 _ rfl).1
  have b0 := b 0 0.0 3.0 rfl rfl
  simp at c0 c1
  rw [hobj]
  simp [obj24]
  norm_num at c0 c1 b0 ⊢
  have := g24_core (at0 x 0) (at0 x 1) b0.1 b0.2 (by linarith) (by linarith)
  linarith

theorem g03_min {p : Cec06.Prob} (h : Cec06.construct 3 = .ok p) {x : List ℝ} {f tol : ℝ} {cs : List (Option ℝ)} (hx : InBox p.lb p.ub x)
    (hf : Cec06.fitness p x = .ok (some f :: cs)) (hF : Feas tol p.nec cs) : -(1 + tol) ^ 5 ≤ f := by
  have hp : p = _ := (Outcome.ok.inj h).symm
  obtain ⟨hobj, hcon⟩ := cec_poly h (by rw [hp]; rfl) (by rw [hp]; decide +kernel) (by rw [hp]; decide +kernel) hx hf hF
  have b := box_at hx
  rw [hp] at hobj hcon b
  have c0 := (hcon 0 _ rfl).1
  have b0 : ∀ i, i < 10 → 0 ≤ at0 x i := by
    intro i hi
    have := (b i 0.0 1.0 (by interval_cases i <;> rfl) (by interval_cases i <;> rfl)).1
    norm_num at this; exact this
  have hs := cec_prod10 (fun i => at0 x i ^ 2) (fun i _ => sq_nonneg _)
  rw [Finset.prod_pow] at hs
  have hpn : 0 ≤ ∏ i ∈ Finset.range 10, at0 x i := Finset.prod_nonneg (fun i hi => b0 i (Finset.mem_range.mp hi))
  simp [List.range_succ] at c0
  norm_num at c0
  have hsum : ∑ i ∈ Finset.range 10, at0 x i ^ 2 ≤ 1 + tol := by
    simp only [Finset.sum_range_succ, Finset.sum_range_zero]; linarith
  have hsn : 0 ≤ ∑ i ∈ Finset.range 10, at0 x i ^ 2 := Finset.sum_nonneg (fun i _ => sq_nonneg _)
  have h1 : (∏ i ∈ Finset.range 10, at0 x i) ^ 2 ≤ (((1 + tol) / 10) ^ 5) ^ 2 := by
    refine hs.trans ?_
    rw [← pow_mul]
    exact pow_le_pow_left₀ (by positivity) (by linarith) 10
  have ht : 0 ≤ 1 + tol := hsn.trans hsum
  have h2 := (abs_le_of_sq_le_sq' h1 (by positivity)).2
  rw [hobj]
  simp [obj03, List.range_succ]
  norm_num
  simp only [Finset.prod_range_succ, Finset.prod_range_zero, one_mul] at h2
  have h10 : Real.sqrt 10 ^ 10 = 100000 := by
    rw [show (10 : Nat) = 2 * 5 from rfl, pow_mul, Real.sq_sqrt (by norm_num)]; norm_num
  generalize Real.sqrt 10 = r at *
  have h3 : r ^ 10 * (at0 x 0 * at0 x 1 * at0 x 2 * at0 x 3 * at0 x 4 * at0 x 5 * at0 x 6 * at0 x 7 * at0 x 8 * at0 x 9) ≤ (1 + tol) ^ 5 := by
    rw [h10]; rw [div_pow] at h2; linarith
  refine le_trans (le_of_eq ?_) h3
  ring

theorem quartic_ge (t m : ℝ) : m ^ 4 + 4 * m ^ 3 * (t - m) + 2 * m ^ 2 * (t - m) ^ 2 ≤ t ^ 4 := by
  nlinarith [mul_nonneg (sq_nonneg (t - m)) (sq_nonneg (t + m))]

theorem sextic_ge (t m : ℝ) : m ^ 6 + 6 * m ^ 5 * (t - m) ≤ t ^ 6 := by
  have h : t ^ 6 - (m ^ 6 + 6 * m ^ 5 * (t - m)) = (t - m) ^ 2 * ((t ^ 2 + m * t) ^ 2 + 2 * m ^ 2 * (t + m) ^ 2 + 3 * m ^ 4 ) := by ring
  have h2 : 0 ≤ (t - m) ^ 2 * ((t ^ 2 + m * t) ^ 2 + 2 * m ^ 2 * (t + m) ^ 2 + 3 * m ^ 4) := by positivity
  linarith

theorem g07_min {p : Cec06.Prob} (h : Cec06.construct 7 = .ok p) {x : List ℝ} {f : ℝ} {cs : List (Option ℝ)} (hx : InBox p.lb p.ub x)
    (hf : Cec06.fitness p x = .ok (some f :: cs)) (hF : Feas 0 p.nec cs) : 24.3062 ≤ f := by
  have hp : p = _ := (Outcome.ok.inj h).symm
  obtain ⟨hobj, hcon⟩ := cec_poly h (by rw [hp]; rfl) (by rw [hp]; decide +kernel) (by rw [hp]; decide +kernel) hx hf hF
  have b := box_at hx
  rw [hp] at hobj hcon b
  have c0 := (hcon 0 _ rfl).1
  have c1 := (hcon 1 _ rfl).1
  have c2 := (hcon 2 _ rfl).1
  have c3 := (hcon 3 _ rfl).1
  have c4 := (hcon 4 _ rfl).1
  have c5 := (hcon 5 _ rfl).1
  have b0 := b 0 (-10.0) 10.0 rfl rfl
  have b1 := b 1 (-10.0) 10.0 rfl rfl
  have b2 := b 2 (-10.0) 10.0 rfl rfl
  have b3 := b 3 (-10.0) 10.0 rfl rfl
  have b4 := b 4 (-10.0) 10.0 rfl rfl
  have b5 := b 5 (-10.0) 10.0 rfl rfl
  have b6 := b 6 (-10.0) 10.0 rfl rfl
  have b7 := b 7 (-10.0) 10.0 rfl rfl
  have b8 := b 8 (-10.0) 10.0 rfl rfl
  have b9 := b 9 (-10.0) 10.0 rfl rfl
  simp at c0 c1 c2 c3 c4 c5
  rw [hobj]
  simp [obj07]
  norm_num at c0 c1 c2 c3 c4 c5 b0 b1 b2 b3 b4 b5 b6 b7 b8 b9 ⊢
  clear hobj hcon b hF hf hx hp h
  generalize at0 x 0 = x0 at *
  generalize at0 x 1 = x1 at *
  generalize at0 x 2 = x2 at *
  generalize at0 x 3 = x3 at *
  generalize at0 x 4 = x4 at *
  generalize at0 x 5 = x5 at *
  generalize at0 x 6 = x6 at *
  generalize at0 x 7 = x7 at *
  generalize at0 x 8 = x8 at *
  generalize at0 x 9 = x9 at *
  linarith [sq_nonneg (x0 - 2.17199634142), sq_nonneg (x1 - 2.36368304160), sq_nonneg (x2 - 8.77392573913), sq_nonneg (x3 - 5.09598443745), sq_nonneg (x4 - 0.99065475656), sq_nonneg (x5 - 1.43057392853), sq_nonneg (x6 - 1.32164415364), sq_nonneg (x7 - 9.82872576524), sq_nonneg (x8 - 8.28009158873), sq_nonneg (x9 - 8.37592664773), sq_nonneg (x0 - 2.17199634142 - (x1 - 2.36368304160)), sq_nonneg (x0 - 2.17199634142 + (x1 - 2.36368304160)), b0.1, b0.2, b1.1, b1.2, b2.1, b2.2, b3.1, b3.2, b4.1, b4.2, b5.1, b5.2, b6.1, b6.2, b7.1, b7.2, b8.1, b8.2, b9.1, b9.2]

theorem g09_min {p : Cec06.Prob} (h : Cec06.construct 9 = .ok p) {x : List ℝ} {f : ℝ} {cs : List (Option ℝ)} (hx : InBox p.lb p.ub x)
    (hf : Cec06.fitness p x = .ok (some f :: cs)) (hF : Feas 0 p.nec cs) : 680.63 ≤ f := by
  have hp : p = _ := (Outcome.ok.inj h).symm
  obtain ⟨hobj, hcon⟩ := cec_poly h (by rw [hp]; rfl) (by rw [hp]; decide +kernel) (by rw [hp]; decide +kernel) hx hf hF
  have b := box_at hx
  rw [hp] at hobj hcon b
  have c0 := (hcon 0 _ rfl).1
  have c3 := (hcon 3 _ rfl).1
  have b0 := b 0 (-10.0) 10.0 rfl rfl
  have b1 := b 1 (-10.0) 10.0 rfl rfl
  have b2 := b 2 (-10.0) 10.0 rfl rfl
  have b3 := b 3 (-10.0) 10.0 rfl rfl
  have b4 := b 4 (-10.0) 10.0 rfl rfl
  have b5 := b 5 (-10.0) 10.0 rfl rfl
  have b6 := b 6 (-10.0) 10.0 rfl rfl
  simp at c0 c3
  rw [hobj]
  simp [obj09]
  norm_num at c0 c3 b0 b1 b2 b3 b4 b5 b6 ⊢
  clear hobj hcon b hF hf hx hp h
  generalize at0 x 0 = x0 at *
  generalize at0 x 1 = x1 at *
  generalize at0 x 2 = x2 at *
  generalize at0 x 3 = x3 at *
  generalize at0 x 4 = x4 at *
  generalize at0 x 5 = x5 at *
  generalize at0 x 6 = x6 at *
  linarith [sq_nonneg (x0 - 2.33049935147), sq_nonneg (x1 - 1.95137236847), sq_nonneg (x2 + 0.47754139951), sq_nonneg (x3 - 4.36572624923), sq_nonneg (x4 + 0.62448695910), sq_nonneg (x5 - 1.03813099410), sq_nonneg (x6 - 1.59422667806), sq_nonneg (x0 - 2.33049935147 - (x1 - 1.95137236847)), sq_nonneg (x0 - 2.33049935147 + (x1 - 1.95137236847)), sq_nonneg (x5 - 1.03813099410 - (x6 - 1.59422667806)), quartic_ge x1 (1.95137236847), quartic_ge x2 (-0.47754139951), quartic_ge x6 (1.59422667806), sextic_ge x4 (-0.62448695910), b0.1, b0.2, b1.1, b1.2, b2.1, b2.2, b3.1, b3.2, b4.1, b4.2, b5.1, b5.2, b6.1, b6.2]

theorem g20_core (a3 a4 a5 a9 a10 a11 b3 b4 b5 b9 b10 b11 s1 s2 : ℝ) (p3 : 0 ≤ a3) (p4 : 0 ≤ a4) (p5 : 0 ≤ a5) (p9 : 0 ≤ a9)
    (p10 : 0 ≤ a10) (p11 : 0 ≤ a11) (q3 : 0 ≤ b3) (q5 : 0 ≤ b5) (q10 : 0 ≤ b10) (q11 : 0 ≤ b11)
    (hs1 : s1 = a3 / 137.4 + a4 / 120.9 + a5 / 170.9 + a9 / 82.507 + a10 / 46.07 + a11 / 60.097)
    (hs2 : s2 = b3 / 137.4 + b4 / 120.9 + b5 / 170.9 + b9 / 82.507 + b10 / 46.07 + b11 / 60.097)
    (n1 : s1 ≠ 0) (n2 : s2 ≠ 0)
    (c3 : b3 / (137.4 * s2) = 14.7 * a3 / (40 * 137.4 * s1)) (c4 : b4 / (120.9 * s2) = 84.7 * a4 / (40 * 120.9 * s1))
    (c5 : b5 / (170.9 * s2) = 27.7 * a5 / (40 * 170.9 * s1)) (c9 : b9 / (82.507 * s2) = 17.7 * a9 / (40 * 82.507 * s1))
    (c10 : b10 / (46.07 * s2) = 0.85 * a10 / (40 * 46.07 * s1)) (c11 : b11 / (60.097 * s2) = 0.64 * a11 / (40 * 60.097 * s1))
    (tot : a3 + a4 + a5 + a9 + a10 + a11 + (b3 + b4 + b5 + b9 + b10 + b11) = 1)
    (c13 : a3 / 92.7 + a4 / 82.7 + a5 / 91.6 + a9 / 64.517 + a10 / 49.4 + a11 / 49.1 + 0.7302 * 530 * (14.7 / 40) * s2 = 1.671) : False := by
  have key : ∀ B C a b : ℝ, B ≠ 0 → C ≠ 0 → b / (B * s2) = C * a / (40 * B * s1) → b / (B * C) = a / B * (s2 / (40 * s1)) := by
    intro B C a b hB hC h
    field_simp at h ⊢
    linarith
  have k3 := key _ _ _ _ (by norm_num) (by norm_num) c3
  have k4 := key _ _ _ _ (by norm_num) (by norm_num) c4
  have k5 := key _ _ _ _ (by norm_num) (by norm_num) c5
  have k9 := key _ _ _ _ (by norm_num) (by norm_num) c9
  have k10 := key _ _ _ _ (by norm_num) (by norm_num) c10
  have k11 := key _ _ _ _ (by norm_num) (by norm_num) c11
  have hk : b3 / (137.4 * 14.7) + b4 / (120.9 * 84.7) + b5 / (170.9 * 27.7) + b9 / (82.507 * 17.7) + b10 / (46.07 * 0.85) + b11 / (60.097 * 0.64)
      = s2 / 40 := by
    rw [k3, k4, k5, k9, k10, k11]
    have : s2 / 40 = s1 * (s2 / (40 * s1)) := by field_simp
    rw [this]; generalize s2 / (40 * s1) = k; rw [hs1]; ring
  clear key k3 k4 k5 k9 k10 k11 c3 c4 c5 c9 c10 c11 hs1 n1 n2
  norm_num at *
  linarith

theorem g12_less {x : List ℝ} {ts : List (Option ℝ)} {t : ℝ} : ∀ (l : List (Nat × Nat × Nat)) (c : E),
    (l.foldl (fun c p => E.less (gt12 p) c) c).val x ts ≤ t ↔ c.val x ts ≤ t ∨ ∃ q ∈ l, (gt12 q).val x ts ≤ t := by
  intro l
  induction l with
  | nil => intro c; simp
  | cons a l ih =>
    intro c
    rw [List.foldl_cons, ih]
    have h1 : (E.less (gt12 a) c).val x ts ≤ t ↔ (gt12 a).val x ts ≤ t ∨ c.val x ts ≤ t := by
      rw [val_less]
      by_cases hc : (gt12 a).val x ts < c.val x ts
      · rw [if_pos hc]
        exact ⟨Or.inl, fun h => h.elim id (fun h => by linarith)⟩
      · rw [if_neg hc]
        exact ⟨Or.inr, fun h => h.elim (fun h => by linarith) id⟩
    rw [h1]
    simp only [List.mem_cons, exists_eq_or_imp]
    tauto

end Verif.Props
