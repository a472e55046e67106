import Verif.Model.Schwefel
import Verif.Proof.Analytic
import Mathlib.Analysis.SpecialFunctions.Trigonometric.Bounds
import Mathlib.Analysis.SpecialFunctions.Trigonometric.Deriv
import Mathlib.Analysis.Real.Pi.Bounds
import Mathlib.Analysis.Calculus.Deriv.MeanValue
import Mathlib.Tactic.Linarith

/-!
# schwefel
-/

set_option autoImplicit false

namespace Verif.Props

open Verif Verif.Analytic

theorem schwFitness (x : List ℝ) : Schw.fitness x =
    .ok [418.9828872724338 * (x.length : ℝ) - ∑ i ∈ Finset.range x.length, at0 x i * Real.sin (Real.sqrt |at0 x i|)] := by
  unfold Schw.fitness
  rw [sumLoop_ok (g := fun i => at0 x i * Real.sin (Real.sqrt |at0 x i|))]
  · simp
  · intro i hi
    rw [Schw.term, get_at0 (by omega)]; rfl

theorem schwCos_le {u : ℝ} (h0 : 0 ≤ u) (h2 : u ≤ 2) : Real.cos u ≤ 1 - u ^ 2 / 2 + u ^ 4 / 24 := by
  have h := Real.sin_ge_sub_cube (x := u / 2) (by linarith)
  have hn : 0 ≤ u / 2 - (u / 2) ^ 3 / 6 := by nlinarith [sq_nonneg u, mul_nonneg h0 h0]
  have hs := pow_le_pow_left₀ hn h 2
  have hc : Real.cos u = 1 - 2 * Real.sin (u / 2) ^ 2 := by
    rw [Real.sin_sq_eq_half_sub]; ring_nf
  rw [hc]
  have : 0 ≤ u ^ 6 := by positivity
  nlinarith

theorem schwSin_le {v : ℝ} (h0 : 0 ≤ v) (h2 : v ≤ 2) : Real.sin v ≤ v - v ^ 3 / 6 + v ^ 5 / 120 := by
  let f (t : ℝ) : ℝ := t - t ^ 3 / 6 + t ^ 5 / 120 - Real.sin t
  have hd (t : ℝ) : deriv f t = 1 - t ^ 2 / 2 + t ^ 4 / 24 - Real.cos t := by
    simp (disch := fun_prop) [f]
    ring
  have hm : MonotoneOn f (Set.Icc 0 2) := by
    refine monotoneOn_of_deriv_nonneg (convex_Icc 0 2) (by fun_prop) (by fun_prop) ?_
    intro t ht
    rw [interior_Icc] at ht
    rw [hd]
    linarith [schwCos_le ht.1.le ht.2.le]
  have h : f 0 ≤ f v := hm (by simp) ⟨h0, h2⟩ h0
  have hz : f 0 = 0 := by simp [f]
  rw [hz] at h
  simp only [f] at h
  linarith

theorem schwCos_ge {u : ℝ} (h0 : 0 ≤ u) (h2 : u ≤ 2) : 1 - 2 * (u / 2 - (u / 2) ^ 3 / 6 + (u / 2) ^ 5 / 120) ^ 2 ≤ Real.cos u := by
  have h := schwSin_le (v := u / 2) (by linarith) (by linarith)
  have hn : 0 ≤ Real.sin (u / 2) := Real.sin_nonneg_of_nonneg_of_le_pi (by linarith) (by linarith [Real.pi_gt_three])
  have hs := pow_le_pow_left₀ hn h 2
  have hc : Real.cos u = 1 - 2 * Real.sin (u / 2) ^ 2 := by
    rw [Real.sin_sq_eq_half_sub]; ring_nf
  rw [hc]; linarith

theorem schwSin (t : ℝ) : Real.sin t = Real.cos (t - 13 * Real.pi / 2) := by
  rw [show t - 13 * Real.pi / 2 = t - Real.pi / 2 - ((3 : ℕ) : ℝ) * (2 * Real.pi) by push_cast; ring, Real.cos_sub_nat_mul_two_pi,
    Real.cos_sub_pi_div_two]

theorem schwPoly {u : ℝ} (h0 : 0 ≤ u) (h2 : u ≤ 1.95) :
    150 * (u - 0.097171) ^ 2 + 0.000001 ≤ 418.9828872724338 + 0.000002 - (20.42035225 + u) ^ 2 * (1 - u ^ 2 / 2 + u ^ 4 / 24) + 0.00012 * |u - 0.097171| := by
  have hq : 150 ≤ (81016189664589993660407264789 / 384000000000000000000000000) + (1093923162490515354123 / 64000000000000000000) * u + (-6607298829083873 / 384000000000000) * u ^ 2 + (-82070093 / 48000000) * u ^ 3 + (-1 / 24) * u ^ 4 := by
    have a2 : u ^ 2 ≤ 1.95 ^ 2 := pow_le_pow_left₀ h0 h2 2
    have a3 : u ^ 3 ≤ 1.95 ^ 3 := pow_le_pow_left₀ h0 h2 3
    have a4 : u ^ 4 ≤ 1.95 ^ 4 := pow_le_pow_left₀ h0 h2 4
    nlinarith
  have hm := mul_nonneg (sq_nonneg (u - 0.097171)) (sub_nonneg.mpr hq)
  have he : 418.9828872724338 + 0.000002 - (20.42035225 + u) ^ 2 * (1 - u ^ 2 / 2 + u ^ 4 / 24) =
      (u - 0.097171) ^ 2 * ((81016189664589993660407264789 / 384000000000000000000000000) + (1093923162490515354123 / 64000000000000000000) * u + (-6607298829083873 / 384000000000000) * u ^ 2 + (-82070093 / 48000000) * u ^ 3 + (-1 / 24) * u ^ 4) + (2176740705553285005296687399 / 19200000000000000000000000000000) * (u - 0.097171) + (552904794845288678064717583983431 / 384000000000000000000000000000000000000) := by ring
  have ha := neg_abs_le (u - 0.097171)
  have hp := abs_nonneg (u - 0.097171)
  rw [he]
  nlinarith

theorem schwC : 20.42035224 < 13 * Real.pi / 2 ∧ 13 * Real.pi / 2 < 20.42035225 := by
  constructor
  · linarith [Real.pi_gt_d20]
  · linarith [Real.pi_lt_d20]

/-- the distance from `best_known` by that of the roots -/
theorem schwRoot {x t : ℝ} (htt : t ^ 2 = x) (tl : 20.4205 ≤ t) (tu : t ≤ 22.3607) :
    (x - 420.9687) ^ 2 ≤ 1845 * (t - 20.51752178) ^ 2 + 0.000001 := by
  have e1 : |(20.51752178 : ℝ) ^ 2 - 420.9687| ≤ 0.0000001 := by rw [abs_le]; constructor <;> norm_num
  have e2 : ((20.51752178 : ℝ) ^ 2 - 420.9687) ^ 2 ≤ 0.0000001 ^ 2 := by
    rw [← sq_abs]; exact pow_le_pow_left₀ (abs_nonneg _) e1 2
  generalize hε : (20.51752178 : ℝ) ^ 2 - 420.9687 = ε at e2
  have hx : x - 420.9687 = (t - 20.51752178) * (t + 20.51752178) + ε := by rw [← htt, ← hε]; ring
  rw [hx]
  have s2 : (t + 20.51752178) ^ 2 ≤ 42.88 ^ 2 := pow_le_pow_left₀ (by linarith) (by linarith) 2
  generalize t - 20.51752178 = a
  generalize t + 20.51752178 = b at s2
  have hsq : (a * b) ^ 2 ≤ 1839 * a ^ 2 := by
    rw [mul_pow, mul_comm 1839]
    exact mul_le_mul_of_nonneg_left (by norm_num at s2; linarith) (sq_nonneg a)
  have hx2 : 2 * (a * b) * ε ≤ 0.003 * (a * b) ^ 2 + 334 * ε ^ 2 := by
    nlinarith [sq_nonneg (0.003 * (a * b) - ε), sq_nonneg ε]
  have he : (a * b + ε) ^ 2 = (a * b) ^ 2 + 2 * (a * b) * ε + ε ^ 2 := by ring
  have := sq_nonneg a
  rw [he]
  norm_num at e2
  linarith

theorem schwClose {a w : ℝ} (e : |a - w| ≤ 0.000002) : 129.15 * a ^ 2 + 0.00012 * |w| ≤ 150 * w ^ 2 + 0.0000008 := by
  have e2 : (a - w) ^ 2 ≤ 0.000002 ^ 2 := by rw [← sq_abs]; exact pow_le_pow_left₀ (abs_nonneg _) e 2
  have a2 : a ^ 2 ≤ 1.1 * w ^ 2 + 11 * (a - w) ^ 2 := by
    have : 1.1 * w ^ 2 + 11 * (a - w) ^ 2 - a ^ 2 = 10 * (a - w - 0.1 * w) ^ 2 := by ring
    linarith [sq_nonneg (a - w - 0.1 * w)]
  have hw2 : 0.00012 * |w| ≤ 7 * w ^ 2 + 0.0000007 := by
    rw [← sq_abs w]
    have : 7 * (|w| - 0.00001) ^ 2 = 7 * |w| ^ 2 - 0.00014 * |w| + 0.0000000007 := by ring
    linarith [sq_nonneg (|w| - 0.00001), abs_nonneg w]
  norm_num at e2
  linarith [sq_nonneg w]

/-- what a component adds to the objective -/
theorem schwTerm {x : ℝ} (hl : -500 ≤ x) (hu : x ≤ 500) :
    0.07 * min 1 ((x - 420.9687) ^ 2) ≤ 418.9828872724338 + 0.000002 - x * Real.sin (Real.sqrt |x|) := by
  have hm1 : min 1 ((x - 420.9687) ^ 2) ≤ 1 := min_le_left _ _
  have hm2 : min 1 ((x - 420.9687) ^ 2) ≤ (x - 420.9687) ^ 2 := min_le_right _ _
  by_cases hs : |x| < 417
  · have h1 : x * Real.sin (Real.sqrt |x|) ≤ |x| := by
      calc _ ≤ |x * Real.sin (Real.sqrt |x|)| := le_abs_self _
        _ = |x| * |Real.sin (Real.sqrt |x|)| := abs_mul _ _
        _ ≤ |x| * 1 := mul_le_mul_of_nonneg_left (Real.abs_sin_le_one _) (abs_nonneg _)
        _ = _ := mul_one _
    linarith
  push Not at hs
  have h5 : |x| ≤ 500 := abs_le.mpr ⟨hl, hu⟩
  obtain ⟨c1, c2⟩ := schwC
  set t := Real.sqrt |x| with ht
  have htt : t ^ 2 = |x| := Real.sq_sqrt (abs_nonneg _)
  have ht0 : 0 ≤ t := Real.sqrt_nonneg _
  have tl : 20.4205 ≤ t := Real.le_sqrt_of_sq_le (by norm_num; linarith)
  have tu : t ≤ 22.3607 := by
    rw [ht, Real.sqrt_le_left (by norm_num)]; norm_num; linarith
  rw [schwSin]
  set u := t - 13 * Real.pi / 2 with hu'
  have u0 : 0 ≤ u := by linarith
  have u1 : u ≤ 1.95 := by linarith
  rcases le_or_gt 0 x with hx | hx
  · have hcos := schwCos_le u0 (by linarith)
    have hpoly := schwPoly u0 u1
    rw [abs_of_nonneg hx] at htt
    have h1 : x * Real.cos u ≤ x * (1 - u ^ 2 / 2 + u ^ 4 / 24) := mul_le_mul_of_nonneg_left hcos hx
    have hx2 : x ≤ (20.42035225 + u) ^ 2 := by
      rw [← htt]; exact pow_le_pow_left₀ ht0 (by linarith) 2
    have hroot := schwRoot htt tl tu
    by_cases hc : 0 ≤ 1 - u ^ 2 / 2 + u ^ 4 / 24
    · have h2 : x * (1 - u ^ 2 / 2 + u ^ 4 / 24) ≤ (20.42035225 + u) ^ 2 * (1 - u ^ 2 / 2 + u ^ 4 / 24) := mul_le_mul_of_nonneg_right hx2 hc
      have e : |t - 20.51752178 - (u - 0.097171)| ≤ 0.000002 := by rw [abs_le]; constructor <;> (rw [hu']; linarith)
      have := schwClose e
      linarith
    · push Not at hc
      have : x * (1 - u ^ 2 / 2 + u ^ 4 / 24) ≤ 0 := mul_nonpos_of_nonneg_of_nonpos hx hc.le
      linarith
  · have h3 : -0.5 ≤ Real.cos u := by
      have : Real.cos (Real.pi - Real.pi / 3) ≤ Real.cos u :=
        Real.cos_le_cos_of_nonneg_of_le_pi u0 (by linarith [Real.pi_pos]) (by linarith [Real.pi_gt_d20])
      rw [Real.cos_pi_sub, Real.cos_pi_div_three] at this
      linarith
    nlinarith

/-- a component of `best_known` -/
theorem schwBest : 418.9828872724338 - 0.000001 ≤ 420.9687 * Real.sin (Real.sqrt |(420.9687 : ℝ)|) := by
  obtain ⟨c1, c2⟩ := schwC
  rw [abs_of_nonneg (by norm_num), schwSin]
  set t := Real.sqrt 420.9687 with ht
  have tl : 20.517521780 ≤ t := Real.le_sqrt_of_sq_le (by norm_num)
  have tu : t ≤ 20.517521781 := by rw [ht, Real.sqrt_le_left (by norm_num)]; norm_num
  set u := t - 13 * Real.pi / 2 with hu
  have u0 : 0.09716953 ≤ u := by linarith
  have u1 : u ≤ 0.09716955 := by linarith
  have hc := schwCos_ge (u := u) (by linarith) (by linarith)
  have hb : u / 2 - (u / 2) ^ 3 / 6 + (u / 2) ^ 5 / 120 ≤ 0.0485656636 := by
    have p3 : 0.09716953 ^ 3 ≤ u ^ 3 := pow_le_pow_left₀ (by norm_num) u0 3
    have p5 : u ^ 5 ≤ 0.09716955 ^ 5 := pow_le_pow_left₀ (by linarith) u1 5
    have e : u / 2 - (u / 2) ^ 3 / 6 + (u / 2) ^ 5 / 120 = u / 2 - u ^ 3 / 48 + u ^ 5 / 3840 := by ring
    rw [e]; norm_num at p3 p5 ⊢; linarith
  have hn : 0 ≤ u / 2 - (u / 2) ^ 3 / 6 + (u / 2) ^ 5 / 120 := by
    have p3 : u ^ 3 ≤ 0.1 ^ 3 := pow_le_pow_left₀ (by linarith) (by linarith) 3
    have p5 : 0 ≤ u ^ 5 := by positivity
    have e : u / 2 - (u / 2) ^ 3 / 6 + (u / 2) ^ 5 / 120 = u / 2 - u ^ 3 / 48 + u ^ 5 / 3840 := by ring
    rw [e]; norm_num at p3 ⊢; linarith
  have hb2 := pow_le_pow_left₀ hn hb 2
  norm_num at hb2 ⊢
  linarith

/-! ## C143 -/

/-- C143: the constructor -/
theorem C143_ctor (dim : Nat) : (dim < 1 → Schw.construct dim = .throws .invalidArgument) ∧ (1 ≤ dim → Schw.construct dim = .ok dim) := by
  refine ⟨fun h => by rw [Schw.construct, if_pos h], fun h => by rw [Schw.construct, if_neg (by omega)]⟩

/-- C143: the bounds; `best_known` is within them -/
theorem C143_bounds (dim : Nat) : (Schw.bounds dim).1 = List.replicate dim (-500) ∧ (Schw.bounds dim).2 = List.replicate dim 500 ∧
    (Schw.best dim).length = dim ∧ ∀ v ∈ Schw.best dim, -500 < v ∧ v < 500 := by
  refine ⟨rfl, rfl, List.length_replicate, fun v hv => ?_⟩
  rw [List.eq_of_mem_replicate hv]; norm_num

/-- C143: the fitness -/
theorem C143_fitness (x : List ℝ) : Schw.fitness x =
    .ok [418.9828872724338 * x.length - (x.map (fun a => a * Real.sin (Real.sqrt |a|))).sum] := by
  rw [schwFitness]
  have : ∀ l : List ℝ, ∑ i ∈ Finset.range l.length, at0 l i * Real.sin (Real.sqrt |at0 l i|) = (l.map (fun a => a * Real.sin (Real.sqrt |a|))).sum := by
    intro l
    induction l with
    | nil => simp
    | cons a l ih =>
      rw [List.length_cons, Finset.sum_range_succ', List.map_cons, List.sum_cons, ← ih, add_comm]
      rfl
  rw [this]

/-- C143: within the bounds the objective is at least 0 up to 2e-6 for each component, and it grows with the distance of any component from
`best_known` -/
theorem C143_growth {dim : Nat} {x : List ℝ} (hx : x.length = dim)
    (hb : ∀ (i : Nat) (l a u : ℝ), (Schw.bounds dim).1[i]? = some l → x[i]? = some a → (Schw.bounds dim).2[i]? = some u → l ≤ a ∧ a ≤ u) :
    ∃ v, Schw.fitness x = .ok [v] ∧ ∑ i ∈ Finset.range dim, 0.07 * min 1 ((x.getD i 0 - 420.9687) ^ 2) - 0.000002 * dim ≤ v := by
  refine ⟨_, schwFitness x, ?_⟩
  rw [hx]
  have h : ∀ i ∈ Finset.range dim, 0.07 * min 1 ((x.getD i 0 - 420.9687) ^ 2) ≤
      418.9828872724338 + 0.000002 - at0 x i * Real.sin (Real.sqrt |at0 x i|) := by
    intro i hi
    have hi := Finset.mem_range.mp hi
    have := hb i (-500) (at0 x i) 500 (by simp [Schw.bounds, hi]) (some_at0 (by omega)) (by simp [Schw.bounds, hi])
    exact schwTerm this.1 this.2
  have := Finset.sum_le_sum h
  rw [Finset.sum_sub_distrib, Finset.sum_const, Finset.card_range, nsmul_eq_mul] at this
  linarith

/-- C143: at `best_known` the objective is 0 up to 2e-6 for each component -/
theorem C143_best (dim : Nat) : ∃ v, Schw.fitness (Schw.best dim) = .ok [v] ∧ |v| ≤ 0.000002 * dim := by
  refine ⟨_, schwFitness _, ?_⟩
  have hl : (Schw.best dim).length = dim := List.length_replicate
  rw [hl]
  have h : ∀ i ∈ Finset.range dim, at0 (Schw.best dim) i * Real.sin (Real.sqrt |at0 (Schw.best dim) i|)
      = 420.9687 * Real.sin (Real.sqrt |(420.9687 : ℝ)|) := by
    intro i hi
    have hi := Finset.mem_range.mp hi
    rw [show at0 (Schw.best dim) i = 420.9687 from at0_some (by simp [Schw.best, hi])]
  rw [Finset.sum_congr rfl h, Finset.sum_const, Finset.card_range, nsmul_eq_mul]
  have h1 := schwBest
  have h2 := schwTerm (x := 420.9687) (by norm_num) (by norm_num)
  have h0 : (0 : ℝ) ≤ 0.07 * min 1 ((420.9687 - 420.9687) ^ 2) := mul_nonneg (by norm_num) (le_min (by norm_num) (by norm_num))
  have hd : (0 : ℝ) ≤ dim := Nat.cast_nonneg _
  generalize 420.9687 * Real.sin (Real.sqrt |(420.9687 : ℝ)|) = g at *
  have e : 418.9828872724338 * (dim : ℝ) - dim * g = dim * (418.9828872724338 - g) := by ring
  rw [e, abs_le]
  constructor <;> nlinarith

/-- C143: no point of the box is better than `best_known` by more than 4e-6 for each component, and every one that has a component at a distance of
1 or more is worse, for up to 17000 components -/
theorem C143_optimal {dim : Nat} {x : List ℝ} (hx : x.length = dim)
    (hb : ∀ (i : Nat) (l a u : ℝ), (Schw.bounds dim).1[i]? = some l → x[i]? = some a → (Schw.bounds dim).2[i]? = some u → l ≤ a ∧ a ≤ u) :
    ∃ v b, Schw.fitness x = .ok [v] ∧ Schw.fitness (Schw.best dim) = .ok [b] ∧ b ≤ v + 0.000004 * dim ∧
      ((∃ (i : Nat) (a : ℝ), x[i]? = some a ∧ 1 ≤ |a - 420.9687|) → dim ≤ 17000 → b < v) := by
  obtain ⟨v, hv, h1⟩ := C143_growth hx hb
  obtain ⟨b, hb', h2⟩ := C143_best dim
  have hn : ∀ i ∈ Finset.range dim, (0 : ℝ) ≤ 0.07 * min 1 ((x.getD i 0 - 420.9687) ^ 2) :=
    fun i _ => mul_nonneg (by norm_num) (le_min (by norm_num) (sq_nonneg _))
  have hs := Finset.sum_nonneg hn
  have h3 := (abs_le.mp h2).2
  refine ⟨v, b, hv, hb', by linarith, ?_⟩
  rintro ⟨i, a, ha, hd⟩ hdim
  have hi : i < dim := by rw [← hx]; exact (List.getElem?_eq_some_iff.mp ha).1
  have hone := Finset.single_le_sum hn (Finset.mem_range.mpr hi)
  rw [show x.getD i 0 = a from at0_some ha] at hone
  have hsq : 1 ≤ (a - 420.9687) ^ 2 := by rw [← sq_abs]; nlinarith
  rw [min_eq_left hsq] at hone
  have hdim' : (dim : ℝ) ≤ 17000 := by exact_mod_cast hdim
  linarith

/-- the origin of dimension 2 is in the box and worse -/
example : ∃ v b, Schw.fitness [0, 0] = .ok [v] ∧ Schw.fitness (Schw.best 2) = .ok [b] ∧ b < v := by
  obtain ⟨v, b, h1, h2, _, h3⟩ := C143_optimal (dim := 2) (x := [0, 0]) rfl (by
    intro i l a u hl ha hu
    simp only [Schw.bounds] at hl hu
    rw [List.getElem?_replicate] at hl hu
    have ha : a = 0 := by
      have := List.mem_of_getElem? ha; simpa using this
    split at hl <;> simp_all
    rw [← hl, ← hu]; norm_num)
  exact ⟨v, b, h1, h2, h3 ⟨0, 0, rfl, by rw [abs_of_neg (by norm_num)]; norm_num⟩ (by norm_num)⟩

end Verif.Props
