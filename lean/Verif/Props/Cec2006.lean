import Verif.Proof.Cec2006G20

/-!
# The CEC 2006 problems: shape, best known solutions, optima
-/

set_option autoImplicit false

namespace Verif.Props

open Verif Verif.Cec06 Verif.Analytic Verif.Spec

/-! ## C138 -/

/-- C138: the constructor takes the numbers 1 to 24, anything else is rejected -/
theorem C138_ctor (id : Nat) :
    (1 ≤ id ∧ id ≤ 24 → ∃ p, Cec06.construct id = .ok p) ∧ (¬(1 ≤ id ∧ id ≤ 24) → Cec06.construct id = .throws .invalidArgument) := by
  constructor
  · intro h
    have := List.all_eq_true.mp cecShape_all id (by rw [List.mem_range'_1]; omega)
    unfold cecShape at this
    cases hc : Cec06.construct id with
    | ok p => exact ⟨p, rfl⟩
    | throws e => rw [hc] at this; cases this
    | ub => rw [hc] at this; cases this
    | nofuel => rw [hc] at this; cases this
  · intro h; rw [Cec06.construct, if_pos (by omega)]

/-- C138: the bounds of every problem are two vectors of the same length, no lower bound above the upper bound -/
theorem C138_bounds {id : Nat} {p : Cec06.Prob} (h : Cec06.construct id = .ok p) :
    0 < p.lb.length ∧ p.ub.length = p.lb.length ∧ ∀ (i : Nat) (l u : ℚ), p.lb[i]? = some l → p.ub[i]? = some u → l ≤ u := by
  have hl := cec_lengths h
  have h2 := (cec_shape h).2
  refine ⟨?_, by omega, ?_⟩
  · rw [hl.2.1]
    have hid : 1 ≤ id ∧ id ≤ 24 := by
      by_contra hc
      rw [(C138_ctor id).2 hc] at h; cases h
    have hd : ∀ i ∈ List.range' 1 24, (match Cec06.construct i with | .ok p => decide (0 < p.dim) | _ => false) = true := by decide +kernel
    have := hd id (by rw [List.mem_range'_1]; omega)
    rw [h] at this
    exact of_decide_eq_true this
  · intro i l u h3 h4
    have hi : i < p.dim := by rw [← hl.2.1]; exact (List.getElem?_eq_some_iff.mp h3).1
    have := List.all_eq_true.mp h2 i (List.mem_range.mpr hi)
    simp only [List.getD_eq_getElem?_getD, h3, h4, Option.getD_some, decide_eq_true_eq] at this
    exact this

/-- C138: the fitness of a vector of the right length is computed without undefined behaviour: the objective and exactly as many constraints
as announced. -/
theorem C138_fitness {id : Nat} {p : Cec06.Prob} (h : Cec06.construct id = .ok p) {x : List ℝ} (hx : x.length = p.lb.length) :
    ∃ fv, Cec06.fitness p x = .ok fv ∧ fv.length = 1 + p.nec + p.nic := by
  obtain ⟨ts, f, cs, -, -, -, h4, h5, -⟩ := fitness_wf (cec_shape h).1 (hx.trans (cec_lengths h).2.1)
  exact ⟨f :: cs, h4, by simp only [List.length_cons]; omega⟩

/-- the problems whose functions have no partial operation -/
theorem cecPoly_all : ∀ i ∈ [1, 3, 4, 5, 6, 7, 9, 10, 11, 12, 13, 15, 18, 19, 23, 24],
    (match Cec06.construct i with | .ok p => p.temps.isEmpty && p.obj.poly p.dim && p.con.all (fun e => e.poly p.dim) | _ => false) = true := by
  decide +kernel

/-- C138: within the bounds, and outside too, the objective and the constraints of these problems are numbers -/
theorem C138_defined {id : Nat} {p : Cec06.Prob} (h : Cec06.construct id = .ok p)
    (hid : id ∈ [1, 3, 4, 5, 6, 7, 9, 10, 11, 12, 13, 15, 18, 19, 23, 24]) {x : List ℝ} (hx : x.length = p.lb.length) :
    ∃ (f : ℝ) (cs : List ℝ), Cec06.fitness p x = .ok (some f :: cs.map some) := by
  have := cecPoly_all id hid
  rw [h] at this
  simp only [Bool.and_eq_true, List.isEmpty_iff] at this
  refine ⟨p.obj.val x [], p.con.map (fun e => e.val x []), ?_⟩
  rw [fitness_poly (cec_shape h).1 this.1.1 this.1.2 this.2 (hx.trans (cec_lengths h).2.1), List.map_map]
  rfl

/-- C138: the constraints of g21 are numbers within the bounds: the arguments of the logarithms and of the powers stay away from what is not
defined. -/
theorem C138_g21 {p : Cec06.Prob} (h : Cec06.construct 21 = .ok p) {x : List ℝ} (hx : InBox p.lb p.ub x) :
    ∃ (f : ℝ) (cs : List (Option ℝ)), Cec06.fitness p x = .ok (some f :: cs) ∧ ∀ c ∈ cs, ∃ v, c = some v := by
  have hl : x.length = p.dim := hx.1.trans (cec_lengths h).2.1
  obtain ⟨ts, f, cs, h1, h2, h3, h4, h5, h6⟩ := fitness_wf (cec_shape h).1 hl
  have hc := (cec_lengths h).1
  have hp : p = _ := (Outcome.ok.inj h).symm
  have b := box_at hx
  rw [hp] at b h3 h6 hl
  have b1 := b 1 0.0 40.0 rfl rfl
  have b2 := b 2 0.0 40.0 rfl rfl
  have b3 := b 3 100.0 300.0 rfl rfl
  norm_num at b1 b2 b3 hl
  have hdef : ∀ e ∈ con21, e.Def x ts := by
    intro e he
    simp only [con21, List.mem_cons, List.not_mem_nil, or_false] at he
    rcases he with rfl | rfl | rfl | rfl | rfl | rfl <;> norm_num [hl] <;> first | (constructor <;> linarith) | linarith
  have ho : (obj21).Def x ts := by simp [obj21, hl]
  rw [eval_def _ ho] at h3; cases h3
  refine ⟨_, cs, h4, ?_⟩
  intro c hcs
  obtain ⟨i, hi⟩ := List.mem_iff_getElem?.mp hcs
  have hi2 : i < p.con.length := by rw [hc, ← h5]; exact (List.getElem?_eq_some_iff.mp hi).1
  rw [hp] at hi2
  obtain ⟨o, h7, h8⟩ := h6 i _ (List.getElem?_eq_getElem hi2)
  rw [eval_def _ (hdef _ (List.getElem_mem hi2))] at h7; cases h7
  rw [h8] at hi; cases hi
  exact ⟨_, rfl⟩

/-- where the objective has no value -/
theorem cec_none {id : Nat} {p : Cec06.Prob} (h : Cec06.construct id = .ok p) {x : List ℝ} (hx : x.length = p.lb.length) :
    ∃ ts, runTemps x [] p.temps = .ok ts ∧ ((∃ cs, Cec06.fitness p x = .ok (none :: cs)) ↔ ¬p.obj.Def x ts) := by
  have hl : x.length = p.dim := hx.trans (cec_lengths h).2.1
  obtain ⟨ts, f, cs, h1, h2, h3, h4, -, -⟩ := fitness_wf (cec_shape h).1 hl
  have hwf := (cec_shape h).1
  simp only [Cec06.Prob.wf, Bool.and_eq_true, decide_eq_true_eq] at hwf
  have hn := eval_none (le_of_eq hl.symm) (le_of_eq h2.symm) p.obj hwf.1.1.1.1.2
  refine ⟨ts, h1, ?_⟩
  rw [h4, ← hn, h3]
  constructor
  · rintro ⟨cs', h7⟩; cases h7; rfl
  · intro h7; cases h7; exact ⟨cs, rfl⟩

theorem cec_forall {x : List ℝ} {P : ℝ → Prop} : (∀ v ∈ x, P v) ↔ ∀ i, i < x.length → P (at0 x i) := by
  constructor
  · intro h i hi; exact h _ (List.mem_of_getElem? (some_at0 hi))
  · intro h v hv
    obtain ⟨i, hi⟩ := List.mem_iff_getElem?.mp hv
    have := h i (List.getElem?_eq_some_iff.mp hi).1
    rwa [at0_some hi] at this

/-- C138: in g02 the objective is not a number exactly at the origin, a point of the box -/
theorem C138_g02 {p : Cec06.Prob} (h : Cec06.construct 2 = .ok p) {x : List ℝ} (hx : x.length = p.lb.length) :
    (∃ cs, Cec06.fitness p x = .ok (none :: cs)) ↔ ∀ v ∈ x, v = 0 := by
  obtain ⟨ts, -, hn⟩ := cec_none h hx
  have hp : p = _ := (Outcome.ok.inj h).symm
  rw [hn, not_iff_comm, cec_forall]
  rw [hp] at hx ⊢
  have hl : x.length = 20 := hx
  have d1 : ((List.range 20).foldl (fun f j => f + E.cos (X j) ^ 4) 0.0).Def x ts := def_poly (le_of_eq hl.symm) _ (by decide +kernel)
  have d2 : ((List.range 20).foldl (fun f j => f * E.cos (X j) * E.cos (X j)) 1.0).Def x ts := def_poly (le_of_eq hl.symm) _ (by decide +kernel)
  have d3 : ((List.range 20).foldl (fun f j => f + E.q ((j + 1 : Nat) : ℚ) * X j * X j) 0.0).Def x ts :=
    def_poly (le_of_eq hl.symm) _ (by decide +kernel)
  have v3 : ((List.range 20).foldl (fun f j => f + E.q ((j + 1 : Nat) : ℚ) * X j * X j) 0.0).val x ts
      = ∑ j ∈ Finset.range 20, ((j : ℝ) + 1) * at0 x j ^ 2 := by
    simp [List.range_succ, Finset.sum_range_succ]
    norm_num
    ring
  have hnn : 0 ≤ ∑ j ∈ Finset.range 20, ((j : ℝ) + 1) * at0 x j ^ 2 := Finset.sum_nonneg (fun j _ => by positivity)
  simp only [obj02, def_negE, def_abs, def_div, def_sub, def_mul, def_ofNat, def_sqrt, val_sqrt, d1, d2, d3, v3, hnn, true_and, and_true, ne_eq,
    Real.sqrt_eq_zero hnn]
  rw [not_iff_not, Finset.sum_eq_zero_iff_of_nonneg (fun j _ => by positivity), hl]
  constructor
  · intro h i hi
    rw [h i (Finset.mem_range.mp hi)]; ring
  · intro h i hi
    have := h i (Finset.mem_range.mpr hi)
    have h1 : ((i : ℝ) + 1) ≠ 0 := by positivity
    simpa [h1] using this

/-- C138: in g08 the objective is, within the bounds, not a number exactly where the first component is zero -/
theorem C138_g08 {p : Cec06.Prob} (h : Cec06.construct 8 = .ok p) {x : List ℝ} (hx : InBox p.lb p.ub x) :
    (∃ cs, Cec06.fitness p x = .ok (none :: cs)) ↔ x[0]? = some 0 := by
  obtain ⟨ts, -, hn⟩ := cec_none h hx.1
  have b := box_at hx
  have hl := hx.1
  have hp : p = _ := (Outcome.ok.inj h).symm
  rw [hn]
  rw [hp] at b hl ⊢
  have hl2 : x.length = 2 := hl
  have b0 := b 0 0.0 10.0 rfl rfl
  have b1 := b 1 0.0 10.0 rfl rfl
  norm_num at b0 b1
  rw [some_at0 (show 0 < x.length by omega), Option.some.injEq]
  simp [obj08, hl2]
  constructor
  · intro h0
    by_contra hc
    have := h0 hc
    exact hc (by linarith [b0.1, b1.1])
  · intro h0 h1; exact absurd h0 h1

/-- C138: in g14 the objective is, within the bounds, not a number exactly where a component is zero -/
theorem C138_g14 {p : Cec06.Prob} (h : Cec06.construct 14 = .ok p) {x : List ℝ} (hx : InBox p.lb p.ub x) :
    (∃ cs, Cec06.fitness p x = .ok (none :: cs)) ↔ ∃ v ∈ x, v = 0 := by
  obtain ⟨ts, -, hn⟩ := cec_none h hx.1
  have b := box_at hx
  have hl := hx.1
  have hp : p = _ := (Outcome.ok.inj h).symm
  rw [hn, not_iff_comm]
  push Not
  rw [cec_forall]
  rw [hp] at b hl ⊢
  have hl2 : x.length = 10 := hl
  have b0 : ∀ i, i < 10 → 0 ≤ at0 x i := by
    intro i hi
    have := (b i 0.0 10.0 (by interval_cases i <;> rfl) (by interval_cases i <;> rfl)).1
    norm_num at this; exact this
  have hc : ∀ i ∈ List.range 10, (c14.getD i 0).poly 10 = true := by decide +kernel
  have ds : ((List.range 10).foldl (fun s i => s + X i) 0.0).Def x ts := def_poly (le_of_eq hl2.symm) _ (by decide +kernel)
  have vs : ((List.range 10).foldl (fun s i => s + X i) 0.0).val x ts = ∑ i ∈ Finset.range 10, at0 x i := by
    simp [List.range_succ, Finset.sum_range_succ]
    norm_num
  simp only [obj14, def_foldAdd, def_sci, true_and, def_mul, def_add, def_log, def_div, val_div, def_x, val_x, ds, vs, hl2, List.mem_range]
  constructor
  · intro h i hi
    have hs : 0 < ∑ i ∈ Finset.range 10, at0 x i :=
      Finset.sum_pos (fun j hj => lt_of_le_of_ne (b0 j (Finset.mem_range.mp hj)) (Ne.symm (h j (Finset.mem_range.mp hj)))) ⟨0, by simp⟩
    exact ⟨hi, def_poly (le_of_eq hl2.symm) _ (hc i (List.mem_range.mpr hi)), ⟨hi, hs.ne'⟩, div_pos (lt_of_le_of_ne (b0 i hi) (Ne.symm (h i hi))) hs⟩
  · intro h i hi h0
    have := (h i hi).2.2.2
    rw [h0, zero_div] at this
    exact lt_irrefl _ this

theorem cecBox_all : ∀ i ∈ (List.range' 1 24).filter (· ≠ 16), (match Cec06.construct i with
    | .ok p => (List.range p.dim).all (fun k => decide (p.lb.getD k 0 ≤ p.best.getD k 0) && decide (p.best.getD k 0 ≤ p.ub.getD k 0))
    | _ => false) = true := by decide +kernel

theorem cecBox_16 : (match Cec06.construct 16 with
    | .ok p => (List.range p.dim).all (fun k => decide (p.lb.getD k 0 - 1 / 10 ^ 13 ≤ p.best.getD k 0) && decide (p.best.getD k 0 ≤ p.ub.getD k 0)) &&
        decide (p.best.getD 1 0 < p.lb.getD 1 0)
    | _ => false) = true := by decide +kernel

theorem at0_realPt (l : List ℚ) (i : Nat) : at0 (realPt l) i = ((l.getD i 0 : ℚ) : ℝ) := by
  simp only [at0, realPt, List.getD_eq_getElem?_getD, List.getElem?_map]
  cases l[i]? <;> simp

/-- C138: the best solution known of every problem lies within the bounds, except that of g16 -/
theorem C138_best {id : Nat} {p : Cec06.Prob} (h : Cec06.construct id = .ok p) (hid : id ≠ 16) :
    InBox p.lb p.ub (p.best.map (fun q : ℚ => (q : ℝ))) := by
  have hl := cec_lengths h
  have hid2 : 1 ≤ id ∧ id ≤ 24 := by
    by_contra hc
    rw [(C138_ctor id).2 hc] at h; cases h
  have := cecBox_all id (by rw [List.mem_filter, List.mem_range'_1]; exact ⟨by omega, by simpa using hid⟩)
  rw [h] at this
  refine inBox_of (by simp only [List.length_map]; omega) (fun i hi => ?_)
  have h2 := List.all_eq_true.mp this i (List.mem_range.mpr (by omega))
  simp only [Bool.and_eq_true, decide_eq_true_eq] at h2
  have h3 := at0_realPt p.best i
  rw [realPt] at h3
  rw [h3]
  exact ⟨by exact_mod_cast h2.1, by exact_mod_cast h2.2⟩

/-- C138: the second component of the best solution known of g16 is written below the lower bound, by less than 10⁻¹³ -/
theorem C138_best16 {p : Cec06.Prob} (h : Cec06.construct 16 = .ok p) :
    ¬InBox p.lb p.ub (p.best.map (fun q : ℚ => (q : ℝ))) ∧
    InBox (p.lb.map (fun q => q - 1 / 10 ^ 13)) p.ub (p.best.map (fun q : ℚ => (q : ℝ))) := by
  have hl := cec_lengths h
  have := cecBox_16
  rw [h] at this
  simp only [Bool.and_eq_true, decide_eq_true_eq] at this
  have h3 := at0_realPt p.best
  rw [realPt] at h3
  constructor
  · intro hb
    have hd : p.dim = 5 := by have := (Outcome.ok.inj h).symm; rw [this]
    have h1 : 1 < p.lb.length := by omega
    have h2 : 1 < p.ub.length := by omega
    have := (box_at hb 1 _ _ (List.getElem?_eq_getElem h1) (List.getElem?_eq_getElem h2)).1
    rw [h3] at this
    have h4 := ‹_ ∧ p.best.getD 1 0 < p.lb.getD 1 0›.2
    rw [List.getD_eq_getElem?_getD (l := p.lb), List.getElem?_eq_getElem h1, Option.getD_some] at h4
    have h5 : (p.lb[1] : ℚ) ≤ p.best.getD 1 0 := by exact_mod_cast this
    exact absurd h4 (not_lt.mpr h5)
  · refine inBox_of (by simp only [List.length_map]; omega) (fun i hi => ?_)
    rw [List.length_map] at hi
    have h2 := List.all_eq_true.mp this.1 i (List.mem_range.mpr (by omega))
    simp only [Bool.and_eq_true, decide_eq_true_eq] at h2
    have h6 : (p.lb.map (fun q => q - 1 / 10 ^ 13)).getD i 0 = p.lb.getD i 0 - 1 / 10 ^ 13 := by
      simp only [List.getD_eq_getElem?_getD, List.getElem?_map, List.getElem?_eq_getElem hi, Option.map_some, Option.getD_some]
    rw [h3, h6]
    exact ⟨by exact_mod_cast h2.1, by exact_mod_cast h2.2⟩

/-! ## C139 -/

/-- C139: at the best solution known the objective is the published value, up to the digits printed, and the constraints hold up to the
tolerance 10⁻⁴ of the competition (plus the rounding of the digits). -/
theorem C139_published {id : Nat} {v : ℚ} (hv : (id, v) ∈ published) {p : Cec06.Prob} (h : Cec06.construct id = .ok p) :
    ∃ (f : ℝ) (cs : List (Option ℝ)), Cec06.fitness p (p.best.map (fun q : ℚ => (q : ℝ))) = .ok (some f :: cs) ∧
      |f - v| ≤ 1 / 10 ^ 9 ∧ Feas (1 / 10 ^ 4 + 1 / 10 ^ 9) p.nec cs := by
  have := List.all_eq_true.mp cecBest_all (id, v) hv
  unfold cecBest at this
  rw [h] at this
  dsimp only at this
  cases hr : p.rat p.best with
  | none => rw [hr] at this; cases this
  | some r =>
    obtain ⟨g, cs⟩ := r
    rw [hr] at this
    simp only [Bool.and_eq_true, decide_eq_true_eq] at this
    refine ⟨g, someVals cs, rat_fitness (cec_lengths h).1 hr, ?_, ?_⟩
    · rw [abs_le]
      constructor
      · have := (Rat.cast_le (K := ℝ)).mpr this.1.2; push_cast at this; exact this
      · have := (Rat.cast_le (K := ℝ)).mpr this.1.1; push_cast at this; exact this
    · have := feas_someVals (nec := p.nec) (cs := cs) (t := 1 / 10 ^ 4 + 1 / 10 ^ 9) this.2
      norm_num at this ⊢
      exact this

/-- the objective at a rational point is `v` and the constraints hold up to `t` -/
def cecAt (id : Nat) (xs : List ℚ) (v t : ℚ) : Bool :=
  match Cec06.construct id with
  | .ok p => match p.rat xs with
    | some (g, cs) => decide (g = v) && cs.zipIdx.all (fun c => decide (c.1 ≤ t) && (decide (p.nec ≤ c.2) || decide (-t ≤ c.1)))
    | none => false
  | _ => false

theorem cec_at {id : Nat} {p : Cec06.Prob} (h : Cec06.construct id = .ok p) {xs : List ℚ} {v t : ℚ} (hr : cecAt id xs v t = true) :
    ∃ cs, Cec06.fitness p (xs.map (fun q : ℚ => (q : ℝ))) = .ok (some (v : ℝ) :: cs) ∧ Feas (t : ℝ) p.nec cs := by
  unfold cecAt at hr
  rw [h] at hr
  dsimp only at hr
  cases hc : p.rat xs with
  | none => rw [hc] at hr; cases hr
  | some r =>
    obtain ⟨g, cs⟩ := r
    rw [hc] at hr
    simp only [Bool.and_eq_true, decide_eq_true_eq] at hr
    refine ⟨someVals cs, ?_, feas_someVals hr.2⟩
    have := rat_fitness (cec_lengths h).1 hc
    rw [hr.1] at this; exact this

/-- C139: g01 has minimum -15, at the best solution known -/
theorem C139_g01 {p : Cec06.Prob} (h : Cec06.construct 1 = .ok p) :
    (∀ (x : List ℝ) (f : ℝ) (cs : List (Option ℝ)), InBox p.lb p.ub x → Cec06.fitness p x = .ok (some f :: cs) → Feas 0 p.nec cs → -15 ≤ f) ∧
    ∃ cs, Cec06.fitness p (p.best.map (fun q : ℚ => (q : ℝ))) = .ok (some (-15) :: cs) ∧ Feas 0 p.nec cs := by
  refine ⟨fun x f cs hx hf hF => g01_min h hx hf hF, ?_⟩
  have hb : p.best = (match Cec06.construct 1 with | .ok q => q.best | _ => []) := by rw [h]
  obtain ⟨cs, h1, h2⟩ := cec_at (xs := p.best) (v := -15) (t := 0) h (by rw [hb]; decide +kernel)
  norm_num at h1 h2
  exact ⟨cs, h1, h2⟩

/-- C139: g12 has minimum -1, at the best solution known -/
theorem C139_g12 {p : Cec06.Prob} (h : Cec06.construct 12 = .ok p) :
    (∀ (x : List ℝ) (f : ℝ) (cs : List (Option ℝ)), InBox p.lb p.ub x → Cec06.fitness p x = .ok (some f :: cs) → -1 ≤ f) ∧
    ∃ cs, Cec06.fitness p (p.best.map (fun q : ℚ => (q : ℝ))) = .ok (some (-1) :: cs) ∧ Feas 0 p.nec cs := by
  constructor
  · intro x f cs hx hf
    have hp : p = _ := (Outcome.ok.inj h).symm
    have hl : x.length = p.dim := hx.1.trans (cec_lengths h).2.1
    rw [fitness_poly (cec_shape h).1 (by rw [hp]; rfl) (by rw [hp]; decide +kernel) (by rw [hp]; decide +kernel) hl] at hf
    cases hf
    rw [hp]
    simp [obj12]
    norm_num
    nlinarith [sq_nonneg (at0 x 0 - 5), sq_nonneg (at0 x 1 - 5), sq_nonneg (at0 x 2 - 5)]
  · have hb : p.best = (match Cec06.construct 12 with | .ok q => q.best | _ => []) := by rw [h]
    obtain ⟨cs, h1, h2⟩ := cec_at (xs := p.best) (v := -1) (t := 0) h (by rw [hb]; decide +kernel)
    norm_num at h1 h2
    exact ⟨cs, h1, h2⟩

/-- C139: the constraint of g12 holds exactly in the balls of radius 1/4 around the points with coordinates in 1, …, 9 -/
theorem C139_g12_balls {p : Cec06.Prob} (h : Cec06.construct 12 = .ok p) (a b c : ℝ) :
    ∃ f g : ℝ, Cec06.fitness p [a, b, c] = .ok [some f, some g] ∧
      (g ≤ 0 ↔ ∃ i j k : Nat, 1 ≤ i ∧ i ≤ 9 ∧ 1 ≤ j ∧ j ≤ 9 ∧ 1 ≤ k ∧ k ≤ 9 ∧ (a - i) ^ 2 + (b - j) ^ 2 + (c - k) ^ 2 ≤ (1 / 4) ^ 2) := by
  have hp : p = _ := (Outcome.ok.inj h).symm
  have hf := fitness_poly (cec_shape h).1 (by rw [hp]; rfl) (by rw [hp]; decide +kernel) (by rw [hp]; decide +kernel)
    (xs := [a, b, c]) (by rw [hp]; rfl)
  refine ⟨p.obj.val [a, b, c] [], (centres12.foldl (fun c p => E.less (gt12 p) c) (gt12 (1, 1, 1))).val [a, b, c] [], ?_, ?_⟩
  · rw [hf, hp]; rfl
  · rw [g12_less]
    have hg : ∀ q : Nat × Nat × Nat, (gt12 q).val [a, b, c] [] ≤ 0 ↔ (a - q.1) ^ 2 + (b - q.2.1) ^ 2 + (c - q.2.2) ^ 2 ≤ (1 / 4) ^ 2 := by
      intro q
      simp [gt12, at0]
      norm_num
      rw [pow_two, pow_two, pow_two]
    have hm : ∀ q : Nat × Nat × Nat, q ∈ centres12 ↔ 1 ≤ q.1 ∧ q.1 ≤ 9 ∧ 1 ≤ q.2.1 ∧ q.2.1 ≤ 9 ∧ 1 ≤ q.2.2 ∧ q.2.2 ≤ 9 := by
      rintro ⟨i, j, k⟩
      simp only [centres12, List.mem_flatMap, List.mem_map, List.mem_range'_1]
      constructor
      · rintro ⟨i', hi, j', hj, k', hk, h⟩
        cases h; omega
      · rintro ⟨h1, h2, h3, h4, h5, h6⟩
        exact ⟨i, by dsimp only at *; omega, j, by dsimp only at *; omega, k, by dsimp only at *; omega, rfl⟩
    constructor
    · rintro (h1 | ⟨q, hq, h1⟩)
      · exact ⟨1, 1, 1, by omega, by omega, by omega, by omega, by omega, by omega, (hg (1, 1, 1)).mp h1⟩
      · have := (hm q).mp hq
        exact ⟨q.1, q.2.1, q.2.2, this.1, this.2.1, this.2.2.1, this.2.2.2.1, this.2.2.2.2.1, this.2.2.2.2.2, (hg q).mp h1⟩
    · rintro ⟨i, j, k, h1, h2, h3, h4, h5, h6, h7⟩
      exact Or.inr ⟨(i, j, k), (hm (i, j, k)).mpr ⟨h1, h2, h3, h4, h5, h6⟩, (hg (i, j, k)).mpr h7⟩

/-- C139: g23 has minimum -400; the value -400.0551 of the best solution known is below it, which the tolerance allows -/
theorem C139_g23 {p : Cec06.Prob} (h : Cec06.construct 23 = .ok p) :
    (∀ (x : List ℝ) (f : ℝ) (cs : List (Option ℝ)), InBox p.lb p.ub x → Cec06.fitness p x = .ok (some f :: cs) → Feas 0 p.nec cs → -400 ≤ f) ∧
    ∃ (x : List ℝ) (cs : List (Option ℝ)), InBox p.lb p.ub x ∧ Cec06.fitness p x = .ok (some (-400) :: cs) ∧ Feas 0 p.nec cs := by
  refine ⟨fun x f cs hx hf hF => g23_min h hx hf hF, ?_⟩
  obtain ⟨cs, h1, h2⟩ := cec_at (xs := [0, 100, 0, 100, 0, 0, 100, 200, 0.01]) (v := -400) (t := 0) h (by decide +kernel)
  norm_num at h1 h2
  refine ⟨_, cs, ?_, h1, h2⟩
  rw [(Outcome.ok.inj h).symm]
  refine inBox_of rfl (fun i hi => ?_)
  have hi : i < 9 := hi
  interval_cases i <;> simp [at0] <;> norm_num

/-- C139: g06 has its minimum at x₀ = 14.095, x₁ = 5 - √17.280975 -/
theorem C139_g06 {p : Cec06.Prob} (h : Cec06.construct 6 = .ok p) :
    (∀ (x : List ℝ) (f : ℝ) (cs : List (Option ℝ)), InBox p.lb p.ub x → Cec06.fitness p x = .ok (some f :: cs) → Feas 0 p.nec cs →
      (14.095 - 10) ^ 3 + (5 - Real.sqrt 17.280975 - 20) ^ 3 ≤ f) ∧
    ∃ cs : List (Option ℝ), InBox p.lb p.ub [14.095, 5 - Real.sqrt 17.280975] ∧
      Cec06.fitness p [14.095, 5 - Real.sqrt 17.280975] = .ok (some ((14.095 - 10) ^ 3 + (5 - Real.sqrt 17.280975 - 20) ^ 3) :: cs) ∧
      Feas 0 p.nec cs := by
  refine ⟨fun x f cs hx hf hF => g06_min h hx hf hF, ?_⟩
  have hp : p = _ := (Outcome.ok.inj h).symm
  have hs := Real.sq_sqrt (show (0 : ℝ) ≤ 17.280975 by norm_num)
  have hs0 := Real.sqrt_nonneg (17.280975 : ℝ)
  generalize Real.sqrt (17.280975 : ℝ) = s at *
  have hs5 : s ≤ 5 := by nlinarith
  have hf := fitness_poly (cec_shape h).1 (by rw [hp]; rfl) (by rw [hp]; decide +kernel) (by rw [hp]; decide +kernel)
    (xs := [14.095, 5 - s]) (by rw [hp]; rfl)
  refine ⟨p.con.map (fun e => some (e.val [14.095, 5 - s] [])), ?_, ?_, ?_⟩
  · rw [hp]
    refine inBox_of rfl (fun i hi => ?_)
    have hi : i < 2 := hi
    interval_cases i
    · simp [at0]; norm_num
    · simp [at0]; norm_num; constructor <;> linarith
  · rw [hf, hp]
    simp [obj06, at0]
    norm_num
  · rw [hp]
    intro i c hc
    have hi : i < 2 := by
      have := (List.getElem?_eq_some_iff.mp hc).1
      rw [List.length_map] at this; exact this
    interval_cases i
    · cases hc
      refine ⟨_, rfl, ?_, fun hn => absurd hn (by simp)⟩
      simp [at0]; norm_num; nlinarith
    · cases hc
      refine ⟨_, rfl, ?_, fun hn => absurd hn (by simp)⟩
      simp [at0]; norm_num; nlinarith

/-- C139: with the equality allowed to be violated by `tol`, g11 has minimum 3/4 - tol -/
theorem C139_g11 {p : Cec06.Prob} (h : Cec06.construct 11 = .ok p) {tol : ℝ} (h0 : 0 ≤ tol) (h1 : tol ≤ 1 / 2) :
    (∀ (x : List ℝ) (f : ℝ) (cs : List (Option ℝ)), InBox p.lb p.ub x → Cec06.fitness p x = .ok (some f :: cs) → Feas tol p.nec cs → 0.75 - tol ≤ f) ∧
    ∃ (x : List ℝ) (cs : List (Option ℝ)), InBox p.lb p.ub x ∧ Cec06.fitness p x = .ok (some (0.75 - tol) :: cs) ∧ Feas tol p.nec cs := by
  refine ⟨fun x f cs hx hf hF => g11_min h hx hf hF, ?_⟩
  have hp : p = _ := (Outcome.ok.inj h).symm
  have hs := Real.sq_sqrt (show (0 : ℝ) ≤ 1 / 2 - tol by linarith)
  have hs0 := Real.sqrt_nonneg (1 / 2 - tol)
  generalize Real.sqrt (1 / 2 - tol) = s at *
  have hs5 : s ≤ 1 := by nlinarith
  have hf := fitness_poly (cec_shape h).1 (by rw [hp]; rfl) (by rw [hp]; decide +kernel) (by rw [hp]; decide +kernel)
    (xs := [s, 1 / 2]) (by rw [hp]; rfl)
  refine ⟨[s, 1 / 2], p.con.map (fun e => some (e.val [s, 1 / 2] [])), ?_, ?_, ?_⟩
  · rw [hp]
    refine inBox_of rfl (fun i hi => ?_)
    have hi : i < 2 := hi
    interval_cases i
    · simp [at0]; norm_num; constructor <;> linarith
    · simp [at0]; norm_num
  · rw [hf, hp]
    simp [obj11, at0]
    norm_num
    linarith
  · rw [hp]
    intro i c hc
    have hi : i < 1 := by
      have := (List.getElem?_eq_some_iff.mp hc).1
      rw [List.length_map] at this; exact this
    interval_cases i
    cases hc
    refine ⟨_, rfl, ?_, fun _ => ?_⟩
    · simp [at0]; linarith
    · simp [at0]; linarith

example : ∃ p, Cec06.construct 11 = .ok p ∧ (0 : ℝ) ≤ 1 / 10000 ∧ (1 / 10000 : ℝ) ≤ 1 / 2 := ⟨_, rfl, by norm_num, by norm_num⟩

/-- C139: with the equality allowed to be violated by `tol`, g03 has minimum -(1 + tol)⁵ -/
theorem C139_g03 {p : Cec06.Prob} (h : Cec06.construct 3 = .ok p) {tol : ℝ} (h0 : 0 ≤ tol) (h1 : tol ≤ 9) :
    (∀ (x : List ℝ) (f : ℝ) (cs : List (Option ℝ)), InBox p.lb p.ub x → Cec06.fitness p x = .ok (some f :: cs) → Feas tol p.nec cs →
      -(1 + tol) ^ 5 ≤ f) ∧
    ∃ (x : List ℝ) (cs : List (Option ℝ)), InBox p.lb p.ub x ∧ Cec06.fitness p x = .ok (some (-(1 + tol) ^ 5) :: cs) ∧ Feas tol p.nec cs := by
  refine ⟨fun x f cs hx hf hF => g03_min h hx hf hF, ?_⟩
  have hp : p = _ := (Outcome.ok.inj h).symm
  have hs := Real.sq_sqrt (show (0 : ℝ) ≤ (1 + tol) / 10 by linarith)
  have hs0 := Real.sqrt_nonneg ((1 + tol) / 10)
  generalize Real.sqrt ((1 + tol) / 10) = s at *
  have hs5 : s ≤ 1 := by nlinarith
  have hf := fitness_poly (cec_shape h).1 (by rw [hp]; rfl) (by rw [hp]; decide +kernel) (by rw [hp]; decide +kernel)
    (xs := [s, s, s, s, s, s, s, s, s, s]) (by rw [hp]; rfl)
  refine ⟨[s, s, s, s, s, s, s, s, s, s], p.con.map (fun e => some (e.val [s, s, s, s, s, s, s, s, s, s] [])), ?_, ?_, ?_⟩
  · rw [hp]
    refine inBox_of rfl (fun i hi => ?_)
    have hi : i < 10 := hi
    interval_cases i <;> (simp [at0]; norm_num; constructor <;> linarith)
  · rw [hf, hp]
    have h10 := Real.sq_sqrt (show (0 : ℝ) ≤ 10 by norm_num)
    simp [obj03, at0, List.range_succ]
    generalize Real.sqrt (10 : ℝ) = t at *
    have : t ^ 2 * s ^ 2 = 1 + tol := by rw [h10, hs]; ring
    norm_num
    rw [← this]; ring
  · rw [hp]
    intro i c hc
    have hi : i < 1 := by
      have := (List.getElem?_eq_some_iff.mp hc).1
      rw [List.length_map] at this; exact this
    interval_cases i
    cases hc
    refine ⟨_, rfl, ?_, fun _ => ?_⟩
    · simp [at0, List.range_succ]; norm_num; linarith
    · simp [at0, List.range_succ]; norm_num; linarith

example : ∃ p, Cec06.construct 3 = .ok p ∧ (0 : ℝ) ≤ 1 / 10000 ∧ (1 / 10000 : ℝ) ≤ 9 := ⟨_, rfl, by norm_num, by norm_num⟩

/-- C139: nothing feasible is better than the best solutions known of g07, g09 and g24 by more than 10⁻⁵, 10⁻⁴ and 10⁻⁹ -/
theorem C139_lower {p : Cec06.Prob} {x : List ℝ} {f : ℝ} {cs : List (Option ℝ)} (hx : InBox p.lb p.ub x)
    (hf : Cec06.fitness p x = .ok (some f :: cs)) (hF : Feas 0 p.nec cs) :
    (Cec06.construct 7 = .ok p → 24.3062 ≤ f) ∧ (Cec06.construct 9 = .ok p → 680.63 ≤ f) ∧ (Cec06.construct 24 = .ok p → -5.5080132717 ≤ f) :=
  ⟨fun h => g07_min h hx hf hF, fun h => g09_min h hx hf hF, fun h => g24_min h hx hf hF⟩

/-- the constraints at a rational point do not hold up to `t` -/
def cecNot (id : Nat) (t : ℚ) : Bool :=
  match Cec06.construct id with
  | .ok p => match p.rat p.best with
    | some (_, cs) => cs.zipIdx.any (fun c => decide (t < c.1) || (decide (c.2 < p.nec) && decide (c.1 < -t)))
    | none => false
  | _ => false

/-- C139: the best solutions known of g11, g15 and g23 are not feasible: they use the tolerance the competition allows for equalities -/
theorem C139_infeasible {id : Nat} (hid : id ∈ [11, 15, 23]) {p : Cec06.Prob} (h : Cec06.construct id = .ok p) {f : Option ℝ}
    {cs : List (Option ℝ)} (hf : Cec06.fitness p (p.best.map (fun q : ℚ => (q : ℝ))) = .ok (f :: cs)) : ¬Feas 0 p.nec cs := by
  have hr : cecNot id 0 = true := by
    have : ∀ id ∈ [11, 15, 23], cecNot id 0 = true := by decide +kernel
    exact this id hid
  unfold cecNot at hr
  rw [h] at hr
  dsimp only at hr
  cases hc : p.rat p.best with
  | none => rw [hc] at hr; cases hr
  | some r =>
    obtain ⟨g, rs⟩ := r
    rw [hc] at hr
    have := rat_fitness (cec_lengths h).1 hc
    rw [realPt, hf] at this
    cases this
    obtain ⟨⟨c, i⟩, hm, hb⟩ := List.any_eq_true.mp hr
    rw [List.mem_zipIdx_iff_getElem?] at hm
    intro hF
    obtain ⟨v, hv, h1, h2⟩ := hF i (some (c : ℝ)) (by rw [someVals, List.getElem?_map, hm]; rfl)
    cases hv
    simp only [Bool.or_eq_true, Bool.and_eq_true, decide_eq_true_eq, neg_zero] at hb
    rcases hb with hb | ⟨h3, h4⟩
    · have : (0 : ℝ) < (c : ℝ) := by exact_mod_cast hb
      linarith
    · have h5 := h2 h3
      have : (c : ℝ) < 0 := by exact_mod_cast h4
      linarith

/-- C139: the best solution known of g03 is not feasible either -/
theorem C139_infeasible03 {p : Cec06.Prob} (h : Cec06.construct 3 = .ok p) {f : Option ℝ} {cs : List (Option ℝ)}
    (hf : Cec06.fitness p (p.best.map (fun q : ℚ => (q : ℝ))) = .ok (f :: cs)) : ¬Feas 0 p.nec cs := by
  have hl := cec_lengths h
  obtain ⟨ts, f', cs', h1, -, -, h4, -, h6⟩ := fitness_wf (cec_shape h).1
    (xs := p.best.map (fun q : ℚ => (q : ℝ))) (by rw [List.length_map]; omega)
  rw [hf] at h4; cases h4
  have hp : p = _ := (Outcome.ok.inj h).symm
  have ht : p.temps = [] := by rw [hp]; rfl
  rw [ht, runTemps] at h1; cases h1
  have hr : ∃ (e : E) (r : ℚ), p.con[0]? = some e ∧ e.rat p.best [] = some r ∧ 0 < r := by
    have : (match Cec06.construct 3 with
      | .ok p => match p.con[0]? with
        | some e => match e.rat p.best [] with
          | some r => decide (0 < r)
          | none => false
        | none => false
      | _ => false) = true := by decide +kernel
    rw [h] at this
    dsimp only at this
    cases he : p.con[0]? with
    | none => rw [he] at this; cases this
    | some e =>
      rw [he] at this
      dsimp only at this
      cases hr : e.rat p.best [] with
      | none => rw [hr] at this; cases this
      | some r => rw [hr] at this; exact ⟨e, r, rfl, hr, of_decide_eq_true this⟩
  obtain ⟨e, r, he, hr, hpos⟩ := hr
  obtain ⟨o, h7, h8⟩ := h6 0 e he
  have h9 : e.eval (p.best.map (fun q : ℚ => (q : ℝ))) [] = .ok (some (r : ℝ)) := rat_eval (ts := []) e r hr
  rw [h9] at h7; cases h7
  intro hF
  obtain ⟨v, hv, h10, -⟩ := hF 0 _ h8
  cases hv
  have : (0 : ℝ) < (r : ℝ) := by exact_mod_cast hpos
  linarith

/-- the hypotheses of the bounds are met: feasible points of g07, g09 and g24 -/
example : (∃ p cs, Cec06.construct 7 = .ok p ∧ Cec06.fitness p ([2, 2, 8, 5, 1, 2, 1.3, 9, 8, 8].map (fun q : ℚ => (q : ℝ))) = .ok (some ((52.45 : ℚ) : ℝ) :: cs) ∧ Feas ((0 : ℚ) : ℝ) p.nec cs) ∧
    (∃ p cs, Cec06.construct 9 = .ok p ∧ Cec06.fitness p ([0, 0, 0, 0, 0, 0, 0].map (fun q : ℚ => (q : ℝ))) = .ok (some ((1183 : ℚ) : ℝ) :: cs) ∧ Feas ((0 : ℚ) : ℝ) p.nec cs) ∧
    ∃ p cs, Cec06.construct 24 = .ok p ∧ Cec06.fitness p ([0, 0].map (fun q : ℚ => (q : ℝ))) = .ok (some ((0 : ℚ) : ℝ) :: cs) ∧ Feas ((0 : ℚ) : ℝ) p.nec cs := by
  obtain ⟨p7, h7⟩ := (C138_ctor 7).1 (by omega)
  obtain ⟨p9, h9⟩ := (C138_ctor 9).1 (by omega)
  obtain ⟨p24, h24⟩ := (C138_ctor 24).1 (by omega)
  obtain ⟨c7, d7⟩ := cec_at h7 (xs := [2, 2, 8, 5, 1, 2, 1.3, 9, 8, 8]) (v := 52.45) (t := 0) (by decide +kernel)
  obtain ⟨c9, d9⟩ := cec_at h9 (xs := [0, 0, 0, 0, 0, 0, 0]) (v := 1183) (t := 0) (by decide +kernel)
  obtain ⟨c24, d24⟩ := cec_at h24 (xs := [0, 0]) (v := 0) (t := 0) (by decide +kernel)
  exact ⟨⟨p7, c7, h7, d7⟩, ⟨p9, c9, h9, d9⟩, p24, c24, h24, d24⟩

theorem cecVal_cos (xs : List ℝ) (ts : List (Option ℝ)) (a : E) : (E.cos a).val xs ts = Real.cos (a.val xs ts) := rfl

theorem cecVal_sin (xs : List ℝ) (ts : List (Option ℝ)) (a : E) : (E.sin a).val xs ts = Real.sin (a.val xs ts) := rfl

theorem cecVal_exp (xs : List ℝ) (ts : List (Option ℝ)) (a : E) : (E.exp a).val xs ts = Real.exp (a.val xs ts) := rfl

theorem cecVal_log (xs : List ℝ) (ts : List (Option ℝ)) (a : E) : (E.log a).val xs ts = Real.log (a.val xs ts) := rfl

theorem cecVal_abs (xs : List ℝ) (ts : List (Option ℝ)) (a : E) : (E.abs a).val xs ts = |a.val xs ts| := rfl

theorem cecVal_neg (xs : List ℝ) (ts : List (Option ℝ)) (a : E) : (E.neg a).val xs ts = -a.val xs ts := rfl

theorem cecVal_pi (xs : List ℝ) (ts : List (Option ℝ)) : E.pi.val xs ts = Real.pi := rfl

/-- a value of the objective is the value of its expression -/
theorem cec_value {id : Nat} {p : Cec06.Prob} (h : Cec06.construct id = .ok p) {x : List ℝ} (hx : x.length = p.lb.length) {f : ℝ}
    {cs : List (Option ℝ)} (hf : Cec06.fitness p x = .ok (some f :: cs)) : ∃ ts, f = p.obj.val x ts := by
  obtain ⟨ts, f', cs', h1, h2, h3, h4, -, -⟩ := fitness_wf (cec_shape h).1 (hx.trans (cec_lengths h).2.1)
  rw [hf] at h4; cases h4
  exact ⟨ts, (def_eval _ _ h3).2⟩

/-- C139: the objectives of g02, g08, g13 and g14 in the usual notation, wherever they are numbers -/
theorem C139_formulas {p : Cec06.Prob} {x : List ℝ} (hx : x.length = p.lb.length) {f : ℝ} {cs : List (Option ℝ)}
    (hf : Cec06.fitness p x = .ok (some f :: cs)) :
    (Cec06.construct 2 = .ok p → f = -|(∑ i ∈ Finset.range 20, Real.cos (x.getD i 0) ^ 4 - 2 * ∏ i ∈ Finset.range 20, Real.cos (x.getD i 0) ^ 2)
      / Real.sqrt (∑ i ∈ Finset.range 20, ((i : ℝ) + 1) * x.getD i 0 ^ 2)|) ∧
    (Cec06.construct 8 = .ok p → f = -(Real.sin (2 * Real.pi * x.getD 0 0) ^ 3 * Real.sin (2 * Real.pi * x.getD 1 0))
      / (x.getD 0 0 ^ 3 * (x.getD 0 0 + x.getD 1 0))) ∧
    (Cec06.construct 13 = .ok p → f = Real.exp (∏ i ∈ Finset.range 5, x.getD i 0)) ∧
    (Cec06.construct 14 = .ok p → f = ∑ i ∈ Finset.range 10, x.getD i 0 *
      ([-6.089, -17.164, -34.054, -5.914, -24.721, -14.986, -24.1, -10.708, -26.662, -22.179].getD i 0
        + Real.log (x.getD i 0 / ∑ j ∈ Finset.range 10, x.getD j 0))) := by
  refine ⟨fun h => ?_, fun h => ?_, fun h => ?_, fun h => ?_⟩
  · obtain ⟨ts, rfl⟩ := cec_value h hx hf
    rw [(Outcome.ok.inj h).symm]
    change _ = -|(∑ i ∈ Finset.range 20, Real.cos (at0 x i) ^ 4 - 2 * ∏ i ∈ Finset.range 20, Real.cos (at0 x i) ^ 2)
      / Real.sqrt (∑ i ∈ Finset.range 20, ((i : ℝ) + 1) * at0 x i ^ 2)|
    have v1 : ((List.range 20).foldl (fun f j => f + E.cos (X j) ^ 4) 0.0).val x ts = ∑ i ∈ Finset.range 20, Real.cos (at0 x i) ^ 4 := by
      simp [cecVal_cos, List.range_succ, Finset.sum_range_succ]
      norm_num
    have v2 : ((List.range 20).foldl (fun f j => f * E.cos (X j) * E.cos (X j)) 1.0).val x ts = ∏ i ∈ Finset.range 20, Real.cos (at0 x i) ^ 2 := by
      simp [cecVal_cos, List.range_succ, Finset.prod_range_succ]
      norm_num
      ring
    have v3 : ((List.range 20).foldl (fun f j => f + E.q ((j + 1 : Nat) : ℚ) * X j * X j) 0.0).val x ts
        = ∑ j ∈ Finset.range 20, ((j : ℝ) + 1) * at0 x j ^ 2 := by
      simp [cecVal_cos, List.range_succ, Finset.sum_range_succ]
      norm_num
      ring
    simp only [obj02, cecVal_neg, cecVal_abs, val_div, val_sub, val_mul, val_ofNat, val_sqrt, v1, v2, v3]
    norm_num
  · obtain ⟨ts, rfl⟩ := cec_value h hx hf
    rw [(Outcome.ok.inj h).symm]
    change _ = -(Real.sin (2 * Real.pi * at0 x 0) ^ 3 * Real.sin (2 * Real.pi * at0 x 1)) / (at0 x 0 ^ 3 * (at0 x 0 + at0 x 1))
    simp [cecVal_sin, cecVal_pi, obj08]
  · obtain ⟨ts, rfl⟩ := cec_value h hx hf
    rw [(Outcome.ok.inj h).symm]
    change _ = Real.exp (∏ i ∈ Finset.range 5, at0 x i)
    simp [cecVal_exp, obj13, Finset.prod_range_succ]
  · obtain ⟨ts, rfl⟩ := cec_value h hx hf
    rw [(Outcome.ok.inj h).symm]
    change _ = ∑ i ∈ Finset.range 10, at0 x i *
      ([-6.089, -17.164, -34.054, -5.914, -24.721, -14.986, -24.1, -10.708, -26.662, -22.179].getD i 0
        + Real.log (at0 x i / ∑ j ∈ Finset.range 10, at0 x j))
    simp [cecVal_log, obj14, c14, List.range_succ, Finset.sum_range_succ]
    norm_num

/-- C140: g20 has no feasible point -/
theorem C140_g20 {p : Cec06.Prob} (h : Cec06.construct 20 = .ok p) {x : List ℝ} (hx : InBox p.lb p.ub x) {f : Option ℝ} {cs : List (Option ℝ)}
    (hf : Cec06.fitness p x = .ok (f :: cs)) : ¬Feas 0 p.nec cs := fun hF => g20_none h hx hf hF

/-- every problem has points within its bounds with a fitness: the hypotheses of the theorems are met -/
example (id : Nat) (h1 : 1 ≤ id) (h2 : id ≤ 24) (h3 : id ≠ 16) : ∃ (p : Cec06.Prob) (x : List ℝ) (f : Option ℝ) (cs : List (Option ℝ)),
    Cec06.construct id = .ok p ∧ InBox p.lb p.ub x ∧ Cec06.fitness p x = .ok (f :: cs) := by
  obtain ⟨p, hp⟩ := (C138_ctor id).1 ⟨h1, h2⟩
  have hb := C138_best hp h3
  obtain ⟨fv, h4, h5⟩ := C138_fitness hp hb.1
  cases fv with
  | nil => simp only [List.length_nil] at h5; omega
  | cons f cs => exact ⟨p, _, f, cs, hp, hb, h4⟩

end Verif.Props
