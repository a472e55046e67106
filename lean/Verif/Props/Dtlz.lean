import Verif.Proof.Dtlz
import Mathlib.Analysis.Convex.SpecificFunctions.Deriv
import Mathlib.Tactic.IntervalCases

/-!
# C82: the DTLZ problems and their convergence metric
-/

set_option autoImplicit false

namespace Verif.Props

open Verif Verif.Analytic Verif.Dtlz Finset

/-- `x` has the dimension of the bounds and lies between them. -/
def BetweenR (b : List ℝ × List ℝ) (x : List ℝ) : Prop :=
  x.length = b.1.length ∧ x.length = b.2.length ∧
  ∀ (i : Nat) (l a u : ℝ), b.1[i]? = some l → x[i]? = some a → b.2[i]? = some u → l ≤ a ∧ a ≤ u

/-- Pareto dominance of real vectors (minimisation): nowhere larger, somewhere smaller. -/
def DominatesR (u v : List ℝ) : Prop :=
  u.length = v.length ∧ (∀ (i : Nat) (a b : ℝ), u[i]? = some a → v[i]? = some b → a ≤ b) ∧
  ∃ (i : Nat) (a b : ℝ), u[i]? = some a ∧ v[i]? = some b ∧ a < b

/-- `x` is on the optimal front: nothing in the box dominates it. -/
def ParetoOptimalR (fit : List ℝ → Outcome (List ℝ)) (b : List ℝ × List ℝ) (x : List ℝ) : Prop :=
  BetweenR b x ∧ ∃ u, fit x = .ok u ∧ ∀ y v, BetweenR b y → fit y = .ok v → ¬ DominatesR v u

theorem between_unit {p : Dtlz} {x : List ℝ} : BetweenR (Dtlz.bounds p) x ↔ x.length = p.dim ∧ Unit01 x := by
  constructor
  · rintro ⟨h1, -, h3⟩
    have hl : x.length = p.dim := by simpa [Dtlz.bounds] using h1
    refine ⟨hl, fun a ha => ?_⟩
    obtain ⟨i, hi⟩ := List.mem_iff_getElem?.mp ha
    have := (List.getElem?_eq_some_iff.mp hi).1
    have hi' : i < p.dim := by omega
    exact h3 i 0 a 1 (by simp [Dtlz.bounds, hi']) hi (by simp [Dtlz.bounds, hi'])
  · rintro ⟨h1, h2⟩
    refine ⟨by simp [Dtlz.bounds, h1], by simp [Dtlz.bounds, h1], fun i l a u e1 e2 e3 => ?_⟩
    have hi : i < p.dim := by have := (List.getElem?_eq_some_iff.mp e2).1; omega
    simp [Dtlz.bounds, hi] at e1 e3
    subst e1; subst e3
    exact h2 a (List.mem_of_getElem? e2)

/-- C82 (constructor): exactly the documented arguments are accepted. -/
theorem C82_ctor (id dim fdim alpha : Nat) :
    ((1 ≤ id ∧ id ≤ 7 ∧ 2 ≤ fdim ∧ fdim < dim ∧ dim ≤ (2 ^ 64 - 1) / 3) ↔ ∃ p, Dtlz.ctor id dim fdim alpha = .ok p) ∧
    (∀ p, Dtlz.ctor id dim fdim alpha = .ok p → p = ⟨id, dim, fdim, alpha⟩) ∧
    ((∃ p, Dtlz.ctor id dim fdim alpha = .ok p) ∨ Dtlz.ctor id dim fdim alpha = .throws .invalidArgument) := by
  unfold Dtlz.ctor sizeCap
  split_ifs <;> simp <;> omega

/-- what the constructor guarantees -/
def WellMade (p : Dtlz) : Prop := 1 ≤ p.id ∧ p.id ≤ 7 ∧ 2 ≤ p.fdim ∧ p.fdim < p.dim

theorem wellMade_of {id dim fdim alpha : Nat} {p : Dtlz} (h : Dtlz.ctor id dim fdim alpha = .ok p) : WellMade p := by
  have h1 := (C82_ctor id dim fdim alpha).1.mpr ⟨p, h⟩
  have h2 := (C82_ctor id dim fdim alpha).2.1 p h
  subst h2
  exact ⟨h1.1, h1.2.1, h1.2.2.1, h1.2.2.2.1⟩

theorem pDistance_ok {p : Dtlz} {x : List ℝ} (h : x.length = p.dim) : pDistance p x = .ok (gVal p (x.drop (p.fdim - 1))) := by
  unfold pDistance
  rw [if_neg (by simpa using h), gFunc_ok]; simp

theorem unit_drop {x : List ℝ} (h : Unit01 x) (n : Nat) : Unit01 (x.drop n) := fun a ha => h a (List.mem_of_mem_drop ha)

/-- the facts about the objectives of DTLZ1 to DTLZ6 -/
theorem dtlz_norm {p : Dtlz} (hp : WellMade p) (h6 : p.id ≤ 6) {x : List ℝ} (hl : x.length = p.dim) (hu : Unit01 x) :
    ∃ (U : Nat → ℝ) (g : ℝ), gVal p (x.drop (p.fdim - 1)) = g ∧ 0 ≤ g ∧
      U = (fun i => kk p g * wt p.fdim (cc p x g) (ss p x g) i) ∧ fitness p x = .ok ((List.range p.fdim).map U) ∧
      (∀ i, i < p.fdim → 0 ≤ U i) ∧
      (p.id = 1 → ∑ i ∈ range p.fdim, U i = 0.5 * (1 + g)) ∧ (p.id ≠ 1 → ∑ i ∈ range p.fdim, U i ^ 2 = (1 + g) ^ 2) := by
  obtain ⟨h1, -, hm, hd⟩ := hp
  have hg := gVal_nonneg p (unit_drop hu (p.fdim - 1))
  generalize hgv : gVal p (x.drop (p.fdim - 1)) = g at hg
  have hcs := fun j (hj : j < p.fdim - 1) => cs_props p (x := x) (j := j) hg (hu.at0 (by omega)) (hu.at0 (by omega))
  refine ⟨_, g, rfl, hg, rfl, fitness_ok p h1 h6 hm (by omega) g hgv, ?_, ?_, ?_⟩
  · intro i hi
    refine mul_nonneg ?_ (wt_nonneg hm (fun j hj => (hcs j hj).1) (fun j hj => (hcs j hj).2.1) hi)
    unfold kk; split <;> linarith
  · intro h
    rw [← mul_sum, sum_wt hm (fun j hj => (hcs j hj).2.2.1 h), kk, if_pos h, mul_one]
  · intro h
    simp only [mul_pow, wt_sq]
    rw [← mul_sum, sum_wt hm (fun j hj => (hcs j hj).2.2.2 h), kk, if_neg h, mul_one]

/-- C82 (front). For a decision vector in the box the fitness has `fdim` components and `p_distance` is not negative. The components of
DTLZ1 add up to half of one plus the distance; the squares of those of DTLZ2 to DTLZ6 add up to the square of one plus the distance; all
these components are non-negative. The first `fdim - 1` components of DTLZ7 are the first decision variables. -/
theorem C82_front {id dim fdim alpha : Nat} {p : Dtlz} (hc : Dtlz.ctor id dim fdim alpha = .ok p) (x : List ℝ)
    (hx : BetweenR (Dtlz.bounds p) x) :
    ∃ (f : List ℝ) (g : ℝ), fitness p x = .ok f ∧ pDistance p x = .ok g ∧ f.length = fdim ∧ 0 ≤ g ∧
      (id ≠ 7 → ∀ v ∈ f, 0 ≤ v) ∧
      (id = 1 → f.sum = (1 + g) / 2) ∧
      (2 ≤ id → id ≤ 6 → (f.map (fun v => v ^ 2)).sum = (1 + g) ^ 2) ∧
      (id = 7 → f.take (fdim - 1) = x.take (fdim - 1)) := by
  have hp := wellMade_of hc
  obtain rfl := (C82_ctor id dim fdim alpha).2.1 p hc
  obtain ⟨hl, hu⟩ := between_unit.mp hx
  by_cases h6 : id ≤ 6
  · obtain ⟨U, g, hg, hg0, -, hf, hn, hs1, hs2⟩ := dtlz_norm hp h6 hl hu
    refine ⟨_, g, hf, by rw [pDistance_ok hl, hg], by simp, hg0, ?_, ?_, ?_, fun h => by omega⟩
    · intro _ v hv
      obtain ⟨i, hi, rfl⟩ := List.mem_map.mp hv
      exact hn i (List.mem_range.mp hi)
    · intro h
      rw [sum_map_range, hs1 h]; ring
    · intro h _
      rw [List.map_map, sum_map_range, ← hs2 (by show id ≠ 1; omega)]; rfl
  · have h7 : id = 7 := by have := hp.2.1; simp only at this; omega
    have hm : 2 ≤ fdim := hp.2.2.1
    have hd : fdim < dim := hp.2.2.2
    obtain ⟨f, hf, hfl, hfi, -⟩ := fitness7_ok ⟨id, dim, fdim, alpha⟩ h7 hm (x := x) (by simp only at *; omega) _ rfl
    refine ⟨f, _, hf, pDistance_ok hl, hfl, gVal_nonneg _ (unit_drop hu _), fun h => absurd h7 h, fun h => by omega,
      fun _ h => by omega, fun _ => ?_⟩
    refine List.ext_getElem? (fun i => ?_)
    rw [List.getElem?_take, List.getElem?_take]
    split
    · rename_i hi
      rw [hfi i hi, some_at0]
      simp only at hl; omega
    · rfl

/-- C82 (wrong size): `p_distance` throws exactly for decision vectors of another dimension. -/
theorem C82_size (p : Dtlz) (x : List ℝ) :
    (pDistance p x = .throws .invalidArgument ↔ x.length ≠ p.dim) ∧ (x.length = p.dim → ∃ g, pDistance p x = .ok g) := by
  constructor
  · constructor
    · intro h hl
      rw [pDistance_ok hl] at h; cases h
    · intro h; rw [pDistance, if_pos h]
  · intro h; exact ⟨_, pDistance_ok h⟩

/-- a dominating vector has the smaller sum, and the smaller sum of squares if it is not negative -/
theorem dominates_sum {m : Nat} {U V : Nat → ℝ} (hV : ∀ i, i < m → 0 ≤ V i)
    (h : DominatesR ((List.range m).map V) ((List.range m).map U)) :
    ∑ i ∈ range m, V i < ∑ i ∈ range m, U i ∧ ∑ i ∈ range m, V i ^ 2 < ∑ i ∈ range m, U i ^ 2 := by
  obtain ⟨-, h1, i, a, b, ha, hb, hab⟩ := h
  have hi : i < m := by
    have := (List.getElem?_eq_some_iff.mp ha).1; simpa using this
  have hle : ∀ j ∈ range m, V j ≤ U j := by
    intro j hj
    have hj := mem_range.mp hj
    exact h1 j (V j) (U j) (by simp [hj]) (by simp [hj])
  simp [hi] at ha hb
  subst ha; subst hb
  refine ⟨sum_lt_sum hle ⟨i, mem_range.mpr hi, hab⟩, sum_lt_sum (fun j hj => ?_) ⟨i, mem_range.mpr hi, ?_⟩⟩
  · exact pow_le_pow_left₀ (hV j (mem_range.mp hj)) (hle j hj) 2
  · exact pow_lt_pow_left₀ hab (hV i hi) (by norm_num)

/-- C82 (distance zero). For DTLZ1 to DTLZ6 a point of the box with `p_distance` zero is Pareto-optimal. -/
theorem C82_zero_optimal {id dim fdim alpha : Nat} {p : Dtlz} (hc : Dtlz.ctor id dim fdim alpha = .ok p) (h6 : id ≤ 6) (x : List ℝ)
    (hx : BetweenR (Dtlz.bounds p) x) (h0 : pDistance p x = .ok 0) : ParetoOptimalR (fitness p) (Dtlz.bounds p) x := by
  have hp := wellMade_of hc
  obtain rfl := (C82_ctor id dim fdim alpha).2.1 p hc
  obtain ⟨hl, hu⟩ := between_unit.mp hx
  obtain ⟨U, g, hg, -, -, hf, -, hs1, hs2⟩ := dtlz_norm hp h6 hl hu
  rw [pDistance_ok hl, hg] at h0
  obtain rfl : g = 0 := by cases h0; rfl
  refine ⟨hx, _, hf, fun y v hy hv hd => ?_⟩
  obtain ⟨hyl, hyu⟩ := between_unit.mp hy
  obtain ⟨V, g', -, hg0, -, hf', hn, hs1', hs2'⟩ := dtlz_norm hp h6 hyl hyu
  rw [hf'] at hv
  cases hv
  obtain ⟨h1, h2⟩ := dominates_sum hn hd
  by_cases h : id = 1
  · rw [hs1 h, hs1' h] at h1; linarith
  · rw [hs2 h, hs2' h] at h2; nlinarith

/-- the point with the same position variables and the distance variables at their optimum -/
noncomputable def projected (p : Dtlz) (x : List ℝ) : List ℝ := x.take (p.fdim - 1) ++ List.replicate (p.dim - (p.fdim - 1)) (opt p)

theorem projected_props {p : Dtlz} (hp : WellMade p) {x : List ℝ} (hl : x.length = p.dim) (hu : Unit01 x) :
    (projected p x).length = p.dim ∧ Unit01 (projected p x) ∧ gVal p ((projected p x).drop (p.fdim - 1)) = 0 ∧
      ∀ j, j < p.fdim - 1 → at0 (projected p x) j = at0 x j := by
  obtain ⟨h1, h7, hm, hd⟩ := hp
  have hlt : (x.take (p.fdim - 1)).length = p.fdim - 1 := by simp; omega
  refine ⟨by simp [projected]; omega, ?_, ?_, ?_⟩
  · intro a ha
    rcases List.mem_append.mp ha with h | h
    · exact hu a (List.mem_of_mem_take h)
    · obtain ⟨-, rfl⟩ := List.mem_replicate.mp h
      unfold opt; split <;> norm_num
  · rw [projected, List.drop_append_of_le_length (by omega), List.drop_of_length_le (by omega), List.nil_append, gVal_opt]
  · intro j hj
    rw [at0, at0, List.getD_eq_getElem?_getD, List.getD_eq_getElem?_getD, projected, List.getElem?_append_left (by omega),
      List.getElem?_take, if_pos hj]

/-- a vector nowhere larger with another sum (of squares) dominates -/
theorem dominates_of {m : Nat} {U V : Nat → ℝ} (hle : ∀ i, i < m → V i ≤ U i)
    (h : ∑ i ∈ range m, V i ≠ ∑ i ∈ range m, U i ∨ ∑ i ∈ range m, V i ^ 2 ≠ ∑ i ∈ range m, U i ^ 2) :
    DominatesR ((List.range m).map V) ((List.range m).map U) := by
  refine ⟨by simp, fun i a b ha hb => ?_, ?_⟩
  · have hi : i < m := by
      have := (List.getElem?_eq_some_iff.mp ha).1; simpa using this
    simp [hi] at ha hb
    subst ha; subst hb
    exact hle i hi
  · by_contra hn
    have heq : ∀ i ∈ range m, V i = U i := by
      intro i hi
      have hi := mem_range.mp hi
      by_contra hne
      exact hn ⟨i, V i, U i, by simp [hi], by simp [hi], lt_of_le_of_ne (hle i hi) hne⟩
    rcases h with h | h
    · exact h (sum_congr rfl heq)
    · exact h (sum_congr rfl (fun i hi => by rw [heq i hi]))

theorem concave_scale {s : Set ℝ} {f : ℝ → ℝ} (h : ConcaveOn ℝ s f) {g u v : ℝ} (hg : 0 ≤ g) (hu : u ∈ s) (hv : v ∈ s) (hfv : 0 ≤ f v) :
    f u ≤ (1 + g) * f ((u + g * v) / (1 + g)) := by
  have h1 := h.2 hu hv (show 0 ≤ 1 / (1 + g) by positivity) (show 0 ≤ g / (1 + g) by positivity) (by field_simp)
  simp only [smul_eq_mul] at h1
  have e : 1 / (1 + g) * u + g / (1 + g) * v = (u + g * v) / (1 + g) := by field_simp
  rw [e] at h1
  have h2 := mul_le_mul_of_nonneg_left h1 (show 0 ≤ 1 + g by linarith)
  have e2 : (1 + g) * (1 / (1 + g) * f u + g / (1 + g) * f v) = f u + g * f v := by field_simp
  rw [e2] at h2
  have := mul_nonneg hg hfv
  linarith

theorem wt_congr {m : Nat} {C S C' S' : Nat → ℝ} (hC : ∀ j, j < m - 1 → C j = C' j) (hS : ∀ j, j < m - 1 → S j = S' j) {i : Nat}
    (hi : i < m) : wt m C S i = wt m C' S' i := by
  unfold wt
  split
  · exact prod_congr rfl (fun j hj => hC j (mem_range.mp hj))
  · rw [hS _ (by omega)]
    congr 1
    exact prod_congr rfl (fun j hj => hC j (by have := mem_range.mp hj; omega))

theorem kk_mono (p : Dtlz) {g : ℝ} (hg : 0 ≤ g) : kk p 0 ≤ kk p g := by
  unfold kk; split <;> linarith

theorem thetaVal_eq {x : List ℝ} {g : ℝ} {j : Nat} (hg : 0 ≤ g) (hj : j ≠ 0) :
    thetaVal x g j * (Real.pi / 2) = (Real.pi / 4 + g * (at0 x j * (Real.pi / 2))) / (1 + g) := by
  rw [thetaVal, if_neg hj]
  field_simp
  ring

/-- with three objectives the angle of DTLZ5 and DTLZ6 does not bring an objective below its value on the front -/
theorem dtlz56_three {p : Dtlz} (hm : p.fdim = 3) (h5 : 5 ≤ p.id) {x y : List ℝ} {g : ℝ} (hg : 0 ≤ g) (hxy : at0 y 0 = at0 x 0)
    (h0 : 0 ≤ at0 x 0 ∧ at0 x 0 ≤ 1) (h1 : 0 ≤ at0 x 1 ∧ at0 x 1 ≤ 1) {i : Nat} (hi : i < 3) :
    kk p 0 * wt p.fdim (cc p y 0) (ss p y 0) i ≤ kk p g * wt p.fdim (cc p x g) (ss p x g) i := by
  have hpi := Real.pi_pos
  have hk : ∀ g, kk p g = 1 + g := fun g => by rw [kk, if_neg (by omega)]
  have ha : ∀ (z : List ℝ) (g : ℝ) (j : Nat), ang p z g j = thetaVal z g j := fun z g j => by rw [ang, if_neg (by omega), if_neg (by omega)]
  have hcc : ∀ (z : List ℝ) (g : ℝ) (j : Nat), cc p z g j = Real.cos (thetaVal z g j * (Real.pi / 2)) := fun z g j => by
    rw [cc, if_neg (by omega), ha]
  have hss : ∀ (z : List ℝ) (g : ℝ) (j : Nat), ss p z g j = Real.sin (thetaVal z g j * (Real.pi / 2)) := fun z g j => by
    rw [ss, if_neg (by omega), ha]
  have ht0 : ∀ (z : List ℝ) (g : ℝ), thetaVal z g 0 = at0 z 0 := fun z g => if_pos rfl
  have hb0 : 0 ≤ at0 x 0 * (Real.pi / 2) := mul_nonneg h0.1 (by linarith)
  have hb0' : at0 x 0 * (Real.pi / 2) ≤ Real.pi / 2 := by nlinarith
  have hb1 : 0 ≤ at0 x 1 * (Real.pi / 2) := mul_nonneg h1.1 (by linarith)
  have hb1' : at0 x 1 * (Real.pi / 2) ≤ Real.pi / 2 := by nlinarith
  have c0 : 0 ≤ Real.cos (at0 x 0 * (Real.pi / 2)) := Real.cos_nonneg_of_neg_pi_div_two_le_of_le (by linarith) hb0'
  have s0 : 0 ≤ Real.sin (at0 x 0 * (Real.pi / 2)) := Real.sin_nonneg_of_nonneg_of_le_pi hb0 (by linarith)
  have hcos := concave_scale strictConcaveOn_cos_Icc.concaveOn hg (u := Real.pi / 4) (v := at0 x 1 * (Real.pi / 2))
    ⟨by linarith, by linarith⟩ ⟨by linarith, hb1'⟩ (Real.cos_nonneg_of_neg_pi_div_two_le_of_le (by linarith) hb1')
  have hsin := concave_scale strictConcaveOn_sin_Icc.concaveOn hg (u := Real.pi / 4) (v := at0 x 1 * (Real.pi / 2))
    ⟨by linarith, by linarith⟩ ⟨hb1, by linarith⟩ (Real.sin_nonneg_of_nonneg_of_le_pi hb1 (by linarith))
  have e0 : (Real.pi / 4 + 0 * (at0 y 1 * (Real.pi / 2))) / (1 + 0) = Real.pi / 4 := by ring
  rw [hm, hk, hk]
  interval_cases i
  · simp only [wt, if_true, prod_range_succ, prod_range_zero, hcc, ht0, thetaVal_eq hg one_ne_zero, thetaVal_eq le_rfl one_ne_zero, hxy, e0]
    have := mul_le_mul_of_nonneg_left hcos c0
    linarith
  · simp only [wt, one_ne_zero, if_false, show 3 - (1 + 1) = 1 from rfl, prod_range_succ, prod_range_zero, hcc, hss, ht0,
      thetaVal_eq hg one_ne_zero, thetaVal_eq le_rfl one_ne_zero, hxy, e0]
    have := mul_le_mul_of_nonneg_left hsin c0
    linarith
  · simp only [wt, show (2 : Nat) ≠ 0 by decide, if_false, show 3 - (2 + 1) = 0 from rfl, prod_range_zero, hss, ht0, hxy]
    nlinarith

/-- C82 (optimal). For DTLZ1 to DTLZ4 and DTLZ7, and for DTLZ5 and DTLZ6 with two or three objectives, a Pareto-optimal point has
`p_distance` zero. -/
theorem C82_optimal_zero {id dim fdim alpha : Nat} {p : Dtlz} (hc : Dtlz.ctor id dim fdim alpha = .ok p)
    (hid : id ≤ 4 ∨ id = 7 ∨ fdim ≤ 3) (x : List ℝ) (hx : ParetoOptimalR (fitness p) (Dtlz.bounds p) x) :
    pDistance p x = .ok 0 := by
  have hp := wellMade_of hc
  obtain rfl := (C82_ctor id dim fdim alpha).2.1 p hc
  obtain ⟨hb, u, hfu, hnd⟩ := hx
  obtain ⟨hl, hu⟩ := between_unit.mp hb
  obtain ⟨hyl, hyu, hyg, hyj⟩ := projected_props hp hl hu
  generalize hy : projected _ x = y at hyl hyu hyg hyj
  rw [pDistance_ok hl]
  by_contra hne
  have hby : BetweenR (Dtlz.bounds ⟨id, dim, fdim, alpha⟩) y := between_unit.mpr ⟨hyl, hyu⟩
  by_cases h6 : id ≤ 6
  · obtain ⟨U, g, hg, hg0, hU, hf, hUn, hs1, hs2⟩ := dtlz_norm hp h6 hl hu
    obtain ⟨V, g', hg', -, hV, hf', hVn, hs1', hs2'⟩ := dtlz_norm hp h6 hyl hyu
    rw [hyg] at hg'
    subst hg'
    rw [hfu] at hf
    cases hf
    refine hnd y _ hby hf' (dominates_of ?_ ?_)
    · intro i hi
      rw [hV, hU]
      show kk _ 0 * wt fdim _ _ i ≤ kk _ g * wt fdim _ _ i
      have hi' : i < fdim := hi
      by_cases h4 : id ≤ 4 ∨ fdim = 2
      · have ha : ∀ j, j < fdim - 1 → ang ⟨id, dim, fdim, alpha⟩ y 0 j = ang ⟨id, dim, fdim, alpha⟩ x g j := by
          intro j hj
          unfold ang
          rw [hyj j hj]
          split
          · rfl
          · split
            · rfl
            · rename_i e1 e2
              simp only at e1 e2
              obtain rfl : j = 0 := by omega
              rw [thetaVal, thetaVal, if_pos rfl, if_pos rfl, hyj 0 hj]
        have e := wt_congr (m := fdim) (C := cc ⟨id, dim, fdim, alpha⟩ y 0) (S := ss ⟨id, dim, fdim, alpha⟩ y 0)
          (C' := cc ⟨id, dim, fdim, alpha⟩ x g) (S' := ss ⟨id, dim, fdim, alpha⟩ x g)
          (fun j hj => by rw [cc, cc, ha j hj, hyj j hj]) (fun j hj => by rw [ss, ss, ha j hj, hyj j hj]) hi'
        rw [e]
        refine mul_le_mul_of_nonneg_right (kk_mono _ hg0) ?_
        have hk : 0 < kk ⟨id, dim, fdim, alpha⟩ g := by unfold kk; split <;> linarith
        have := hUn i hi
        rw [hU] at this
        exact nonneg_of_mul_nonneg_right this hk
      · have hm3 : fdim = 3 := by have := hp.2.2.1; simp only at this; omega
        subst hm3
        have hd : 3 < dim := hp.2.2.2
        simp only at hl
        exact dtlz56_three (p := ⟨id, dim, 3, alpha⟩) rfl (by show 5 ≤ id; omega) hg0 (hyj 0 (by simp)) (hu.at0 (by omega))
          (hu.at0 (by omega)) hi'
    · rw [hg] at hne
      have hgp : 0 < g := lt_of_le_of_ne hg0 (fun h => hne (by rw [← h]))
      by_cases h : id = 1
      · left; rw [hs1 h, hs1' h]; intro e; linarith
      · right; rw [hs2 h, hs2' h]; intro e; nlinarith
  · have h7 : id = 7 := by have := hp.2.1; simp only at this; omega
    have hm : 2 ≤ fdim := hp.2.2.1
    have hd : fdim < dim := hp.2.2.2
    have hg0 := gVal_nonneg ⟨id, dim, fdim, alpha⟩ (unit_drop hu (fdim - 1))
    simp only at hl hyl hne hyg hyj
    generalize hg : gVal ⟨id, dim, fdim, alpha⟩ (x.drop (fdim - 1)) = g at hg0 hne
    have hgp : 0 < g := lt_of_le_of_ne hg0 (fun h => hne (by rw [← h]))
    obtain ⟨f, hf, hfl, hfi, hfm⟩ := fitness7_ok ⟨id, dim, fdim, alpha⟩ h7 hm (x := x) (by simp only; omega) g hg
    obtain ⟨f', hf', hfl', hfi', hfm'⟩ := fitness7_ok ⟨id, dim, fdim, alpha⟩ h7 hm (x := y) (by simp only; omega) 0 hyg
    simp only at hfl hfi hfm hfl' hfi' hfm'
    rw [hfu] at hf
    cases hf
    have key : ∀ (g : ℝ), 0 ≤ g → (1 + (1 + g)) * ((fdim : ℝ) - ∑ i ∈ range (fdim - 1), at0 x i / (1 + (1 + g)) * (1 + Real.sin (3 * Real.pi * at0 x i)))
        = (1 + (1 + g)) * fdim - ∑ i ∈ range (fdim - 1), at0 x i * (1 + Real.sin (3 * Real.pi * at0 x i)) := by
      intro g hg
      rw [mul_sub, mul_sum]
      congr 1
      refine sum_congr rfl (fun i _ => ?_)
      field_simp
    have hy0 : ∑ i ∈ range (fdim - 1), at0 y i / (1 + (1 + 0)) * (1 + Real.sin (3 * Real.pi * at0 y i)) =
        ∑ i ∈ range (fdim - 1), at0 x i / (1 + (1 + 0)) * (1 + Real.sin (3 * Real.pi * at0 x i)) :=
      sum_congr rfl (fun i hi => by rw [hyj i (mem_range.mp hi)])
    rw [hy0, key 0 le_rfl] at hfm'
    rw [key g hg0] at hfm
    have hlt : (1 + (1 + 0)) * (fdim : ℝ) - ∑ i ∈ range (fdim - 1), at0 x i * (1 + Real.sin (3 * Real.pi * at0 x i)) <
        (1 + (1 + g)) * (fdim : ℝ) - ∑ i ∈ range (fdim - 1), at0 x i * (1 + Real.sin (3 * Real.pi * at0 x i)) := by
      have : (0 : ℝ) < fdim := by exact_mod_cast (by omega : 0 < fdim)
      nlinarith
    refine hnd y f' hby hf' ⟨by rw [hfl, hfl'], fun i a b ha hb => ?_, fdim - 1, _, _, hfm', hfm, hlt⟩
    by_cases hi : i < fdim - 1
    · rw [hfi' i hi] at ha
      rw [hfi i hi] at hb
      cases ha; cases hb
      rw [hyj i hi]
    · have hi2 : i < fdim := by have := (List.getElem?_eq_some_iff.mp ha).1; omega
      obtain rfl : i = fdim - 1 := by omega
      rw [hfm'] at ha
      rw [hfm] at hb
      cases ha; cases hb
      exact hlt.le

/-- C82 (false for DTLZ7): the front is disconnected, points between its parts have `p_distance` zero but are not Pareto-optimal. -/
theorem C82_dtlz7_false : ∃ (p : Dtlz) (x : List ℝ), Dtlz.ctor 7 3 2 100 = .ok p ∧ BetweenR (Dtlz.bounds p) x ∧ pDistance p x = .ok 0 ∧
    ¬ ParetoOptimalR (fitness p) (Dtlz.bounds p) x := by
  refine ⟨⟨7, 3, 2, 100⟩, [1 / 2, 0, 0], rfl, ?_, ?_, ?_⟩
  · refine between_unit.mpr ⟨rfl, fun a ha => ?_⟩
    simp at ha
    rcases ha with rfl | rfl <;> norm_num
  · rw [pDistance_ok rfl]
    simp [gVal, sum_range_succ, at0]
  · rintro ⟨-, u, hu, h⟩
    have g1 : gVal ⟨7, 3, 2, 100⟩ (([1 / 2, 0, 0] : List ℝ).drop (2 - 1)) = 0 := by simp [gVal, sum_range_succ, at0]
    have g2 : gVal ⟨7, 3, 2, 100⟩ (([0, 0, 0] : List ℝ).drop (2 - 1)) = 0 := by simp [gVal, sum_range_succ, at0]
    obtain ⟨f, hf, hfl, hfi, hfm⟩ := fitness7_ok ⟨7, 3, 2, 100⟩ rfl le_rfl (x := [1 / 2, 0, 0]) (by simp) 0 g1
    obtain ⟨f', hf', hfl', hfi', hfm'⟩ := fitness7_ok ⟨7, 3, 2, 100⟩ rfl le_rfl (x := [0, 0, 0]) (by simp) 0 g2
    simp only at hfl hfi hfm hfl' hfi' hfm'
    rw [hu] at hf
    cases hf
    have es : Real.sin (3 * Real.pi * (1 / 2)) = -1 := by
      rw [show 3 * Real.pi * (1 / 2) = Real.pi / 2 + Real.pi by ring, Real.sin_add_pi, Real.sin_pi_div_two]
    have m1 : u[1]? = some 4 := by
      rw [show (1 : Nat) = 2 - 1 from rfl, hfm]
      congr 1
      simp only [show 2 - 1 = 1 from rfl, sum_range_succ, sum_range_zero, at0, List.getD_cons_zero, es]
      norm_num
    have m2 : f'[1]? = some 4 := by
      rw [show (1 : Nat) = 2 - 1 from rfl, hfm']
      congr 1
      simp [sum_range_succ, at0]
      norm_num
    have z1 : u[0]? = some (1 / 2) := by rw [hfi 0 (by norm_num)]; simp [at0]
    have z2 : f'[0]? = some 0 := by rw [hfi' 0 (by norm_num)]; simp [at0]
    refine h [0, 0, 0] f' (between_unit.mpr ⟨rfl, fun a ha => ?_⟩) hf' ⟨by rw [hfl, hfl'], fun i a b ha hb => ?_, 0, 0, 1 / 2, z2, z1, by norm_num⟩
    · simp at ha; subst ha; norm_num
    · have hi : i < 2 := by have := (List.getElem?_eq_some_iff.mp ha).1; omega
      interval_cases i
      · rw [z2] at ha; rw [z1] at hb; cases ha; cases hb; norm_num
      · rw [m2] at ha; rw [m1] at hb; cases ha; cases hb; norm_num

/-- C82 (false for DTLZ5 with four objectives): the point (0, 1, 1, 1, 1) is Pareto-optimal and its `p_distance` is 1/2. The front of DTLZ5
with more than three objectives is not only the curve where the distance function is zero. -/
theorem C82_dtlz5_false : ∃ (p : Dtlz) (x : List ℝ), Dtlz.ctor 5 5 4 100 = .ok p ∧ pDistance p x = .ok (1 / 2) ∧
    ParetoOptimalR (fitness p) (Dtlz.bounds p) x := by
  have hp : WellMade ⟨5, 5, 4, 100⟩ := wellMade_of (id := 5) (dim := 5) (fdim := 4) (alpha := 100) rfl
  have hpi := Real.pi_pos
  have hxu : Unit01 [0, 1, 1, 1, 1] := by
    intro a ha
    simp at ha
    rcases ha with rfl | rfl <;> norm_num
  obtain ⟨U, g, hg, -, hU, hf, -, -, hs⟩ := dtlz_norm hp (by decide) (x := [0, 1, 1, 1, 1]) rfl hxu
  have eg : g = 1 / 2 := by
    rw [← hg]
    simp only [gVal, show 4 - 1 = 3 from rfl, List.drop_succ_cons, List.drop_zero, List.length_cons, List.length_nil, sum_range_succ,
      sum_range_zero, at0, List.getD_cons_zero, List.getD_cons_succ]
    norm_num
  subst eg
  refine ⟨⟨5, 5, 4, 100⟩, [0, 1, 1, 1, 1], rfl, by rw [pDistance_ok rfl, hg], between_unit.mpr ⟨rfl, hxu⟩, _, hf, ?_⟩
  intro y v hy hv hd
  obtain ⟨hyl, hyu⟩ := between_unit.mp hy
  simp only at hyl
  obtain ⟨V, g', hg', hg0, hV, hf', hVn, -, hs'⟩ := dtlz_norm hp (by decide) hyl hyu
  rw [hf'] at hv
  cases hv
  have hlt := (dominates_sum hVn hd).2
  rw [hs (by decide), hs' (by decide)] at hlt
  have hgl : g' < 1 / 2 := by nlinarith
  obtain ⟨-, hle, -⟩ := hd
  have hle : ∀ i, i < 4 → V i ≤ U i := fun i hi => hle i (V i) (U i) (by simp [hi]) (by simp [hi])
  have hcc : ∀ (z : List ℝ) (g : ℝ) (j : Nat), cc ⟨5, 5, 4, 100⟩ z g j = Real.cos (thetaVal z g j * (Real.pi / 2)) := fun z g j => rfl
  have hss : ∀ (z : List ℝ) (g : ℝ) (j : Nat), ss ⟨5, 5, 4, 100⟩ z g j = Real.sin (thetaVal z g j * (Real.pi / 2)) := fun z g j => rfl
  have ht0 : ∀ (z : List ℝ) (g : ℝ), thetaVal z g 0 = at0 z 0 := fun z g => if_pos rfl
  have hk : ∀ g, kk ⟨5, 5, 4, 100⟩ g = 1 + g := fun g => rfl
  have hU3 : U 3 = 0 := by
    rw [hU]
    simp only [wt, show (3 : Nat) ≠ 0 by decide, if_false, show 4 - (3 + 1) = 0 from rfl, prod_range_zero, hss, ht0, at0,
      List.getD_cons_zero, zero_mul, Real.sin_zero, mul_zero]
  have hV3 : V 3 = (1 + g') * Real.sin (at0 y 0 * (Real.pi / 2)) := by
    rw [hV]
    simp only [wt, show (3 : Nat) ≠ 0 by decide, if_false, show 4 - (3 + 1) = 0 from rfl, prod_range_zero, hss, ht0, hk, one_mul]
  have h0 := hyu.at0 (show 0 < y.length by omega)
  have h1 := hyu.at0 (show 1 < y.length by omega)
  have h2 := hyu.at0 (show 2 < y.length by omega)
  have hb0 : 0 ≤ at0 y 0 * (Real.pi / 2) := mul_nonneg h0.1 (by linarith)
  have hb0' : at0 y 0 * (Real.pi / 2) ≤ Real.pi / 2 := by nlinarith
  have s0 : Real.sin (at0 y 0 * (Real.pi / 2)) = 0 := by
    have hn := Real.sin_nonneg_of_nonneg_of_le_pi hb0 (by linarith)
    have := hle 3 (by decide)
    rw [hU3, hV3] at this
    nlinarith
  have c0 : Real.cos (at0 y 0 * (Real.pi / 2)) = 1 := by
    have hn := Real.cos_nonneg_of_neg_pi_div_two_le_of_le (by linarith) hb0'
    have := Real.sin_sq_add_cos_sq (at0 y 0 * (Real.pi / 2))
    rw [s0] at this
    nlinarith
  have hU0 : U 0 = 3 / 8 := by
    rw [hU]
    have e1 : thetaVal [0, 1, 1, 1, 1] (1 / 2) 1 * (Real.pi / 2) = Real.pi / 3 := by
      rw [thetaVal_eq (by norm_num) (by decide)]; simp [at0]; ring
    have e2 : thetaVal [0, 1, 1, 1, 1] (1 / 2) 2 * (Real.pi / 2) = Real.pi / 3 := by
      rw [thetaVal_eq (by norm_num) (by decide)]; simp [at0]; ring
    simp only [wt, if_true, show 4 - 1 = 3 from rfl, prod_range_succ, prod_range_zero, hcc, ht0, hk, e1, e2, at0, List.getD_cons_zero,
      zero_mul, Real.cos_zero, Real.cos_pi_div_three]
    norm_num
  have hV0 : V 0 = (1 + g') * (Real.cos (thetaVal y g' 1 * (Real.pi / 2)) * Real.cos (thetaVal y g' 2 * (Real.pi / 2))) := by
    rw [hV]
    simp only [wt, if_true, show 4 - 1 = 3 from rfl, prod_range_succ, prod_range_zero, hcc, ht0, hk, c0, one_mul]
  have hg1 : (0 : ℝ) < 1 + g' := by linarith
  -- both cosines are at least the sine of the complement
  have hcos : ∀ j, j ≠ 0 → (0 ≤ at0 y j ∧ at0 y j ≤ 1) → Real.sin (Real.pi / 4 / (1 + g')) ≤ Real.cos (thetaVal y g' j * (Real.pi / 2)) := by
    intro j hj hu
    rw [← Real.cos_pi_div_two_sub, thetaVal_eq hg0 hj]
    refine Real.cos_le_cos_of_nonneg_of_le_pi ?_ ?_ ?_
    · have := mul_nonneg hg0 (mul_nonneg hu.1 (by linarith : 0 ≤ Real.pi / 2))
      exact div_nonneg (by linarith) hg1.le
    · have : 0 ≤ Real.pi / 4 / (1 + g') := by positivity
      linarith
    · have e : Real.pi / 2 - Real.pi / 4 / (1 + g') = (Real.pi / 4 + g' * (1 * (Real.pi / 2))) / (1 + g') := by field_simp; ring
      rw [e]
      refine div_le_div_of_nonneg_right ?_ hg1.le
      have := mul_le_mul_of_nonneg_left (mul_le_mul_of_nonneg_right hu.2 (by linarith : 0 ≤ Real.pi / 2)) hg0
      linarith
  have hz : 0 ≤ Real.sin (Real.pi / 4 / (1 + g')) := by
    refine Real.sin_nonneg_of_nonneg_of_le_pi (by positivity) ?_
    rw [div_le_iff₀ hg1]; nlinarith
  have hprod := mul_le_mul (hcos 1 (by decide) h1) (hcos 2 (by decide) h2) hz (hz.trans (hcos 1 (by decide) h1))
  have hv0 := hle 0 (by decide)
  rw [hU0, hV0] at hv0
  have hup : (1 + g') * (Real.sin (Real.pi / 4 / (1 + g')) * Real.sin (Real.pi / 4 / (1 + g'))) ≤ 3 / 8 :=
    (mul_le_mul_of_nonneg_left hprod hg1.le).trans hv0
  have hsq : Real.sin (Real.pi / 4 / (1 + g')) * Real.sin (Real.pi / 4 / (1 + g')) = (1 - Real.cos (Real.pi / 2 / (1 + g'))) / 2 := by
    have e : Real.pi / 2 / (1 + g') = 2 * (Real.pi / 4 / (1 + g')) := by ring
    rw [e, Real.cos_two_mul, ← sub_eq_zero]
    have := Real.sin_sq_add_cos_sq (Real.pi / 4 / (1 + g'))
    linear_combination this
  rw [hsq] at hup
  -- strict concavity of the cosine
  have hw : Real.pi / 2 / (1 + g') ≤ Real.pi / 2 := by rw [div_le_iff₀ hg1]; nlinarith
  have hw0 : 0 < Real.pi / 2 / (1 + g') := by positivity
  have hm1 : Real.pi / 2 / (1 + g') ∈ Set.Icc (-(Real.pi / 2)) (Real.pi / 2) := ⟨by linarith, hw⟩
  have hm2 : (0 : ℝ) ∈ Set.Icc (-(Real.pi / 2)) (Real.pi / 2) := ⟨by linarith, by linarith⟩
  have hconc := strictConcaveOn_cos_Icc.2 hm1 hm2 hw0.ne' (show 0 < 2 * (1 + g') / 3 by linarith)
    (show 0 < 1 - 2 * (1 + g') / 3 by linarith) (by ring)
  simp only [smul_eq_mul, mul_zero, add_zero, Real.cos_zero, mul_one] at hconc
  have e3 : 2 * (1 + g') / 3 * (Real.pi / 2 / (1 + g')) = Real.pi / 3 := by field_simp
  rw [e3, Real.cos_pi_div_three] at hconc
  nlinarith

/-- C82 (population). For a population in the box which is not empty, the average is zero exactly when all the distances are, and it is
never negative. -/
theorem C82_population (p : Dtlz) (xs : List (List ℝ)) (hne : xs ≠ []) (h : ∀ x ∈ xs, BetweenR (Dtlz.bounds p) x) :
    ∃ d, pDistancePop p xs = .ok d ∧ 0 ≤ d ∧ (d = 0 ↔ ∀ x ∈ xs, pDistance p x = .ok 0) := by
  have key : ∀ (l : List (List ℝ)) (c : ℝ), (∀ x ∈ l, BetweenR (Dtlz.bounds p) x) →
      l.foldlM (fun c x => do let d ← pDistance p x; .ok (c + d)) c = .ok (c + (l.map (fun x => gVal p (x.drop (p.fdim - 1)))).sum) := by
    intro l
    induction l with
    | nil => intro c _; simp
    | cons x l ih =>
      intro c hl
      rw [List.foldlM_cons, pDistance_ok (between_unit.mp (hl x (by simp))).1]
      simp only [Outcome.bind_ok]
      rw [ih _ (fun z hz => hl z (by simp [hz]))]
      simp [add_assoc]
  have hnn : ∀ v ∈ xs.map (fun x => gVal p (x.drop (p.fdim - 1))), 0 ≤ v := by
    intro v hv
    obtain ⟨x, hx, rfl⟩ := List.mem_map.mp hv
    exact gVal_nonneg p (unit_drop (between_unit.mp (h x hx)).2 _)
  have hpos : (0 : ℝ) < xs.length := by exact_mod_cast List.length_pos_iff.mpr hne
  refine ⟨(0 + (xs.map (fun x => gVal p (x.drop (p.fdim - 1)))).sum) / xs.length, ?_, ?_, ?_⟩
  · unfold pDistancePop
    rw [key xs 0 h]; rfl
  · rw [zero_add]
    exact div_nonneg (List.sum_nonneg hnn) hpos.le
  · rw [zero_add, div_eq_zero_iff, or_iff_left hpos.ne']
    constructor
    · intro hs x hx
      have := (List.all_zero_of_le_zero_le_of_sum_eq_zero hnn hs (List.mem_map.mpr ⟨x, hx, rfl⟩))
      rw [pDistance_ok (between_unit.mp (h x hx)).1, this]
    · intro hz
      refine List.sum_eq_zero (fun v hv => ?_)
      obtain ⟨x, hx, rfl⟩ := List.mem_map.mp hv
      have := hz x hx
      rw [pDistance_ok (between_unit.mp (h x hx)).1] at this
      exact Outcome.ok.inj this

/-! Examples -/

example : Dtlz.ctor 3 7 3 100 = .ok ⟨3, 7, 3, 100⟩ ∧ Dtlz.ctor 8 7 3 100 = .throws .invalidArgument ∧
    Dtlz.ctor 1 3 3 100 = .throws .invalidArgument := ⟨rfl, rfl, rfl⟩

example : BetweenR (Dtlz.bounds ⟨2, 4, 2, 100⟩) [1 / 4, 1 / 2, 1 / 2, 1 / 2] ∧ pDistance ⟨2, 4, 2, 100⟩ [1 / 4, 1 / 2, 1 / 2, 1 / 2] = .ok 0 := by
  refine ⟨between_unit.mpr ⟨rfl, fun a ha => ?_⟩, ?_⟩
  · simp at ha; rcases ha with rfl | rfl <;> norm_num
  · rw [pDistance_ok rfl]
    simp [gVal, sum_range_succ, at0]
    norm_num

example : ParetoOptimalR (fitness ⟨2, 4, 2, 100⟩) (Dtlz.bounds ⟨2, 4, 2, 100⟩) [1 / 4, 1 / 2, 1 / 2, 1 / 2] := by
  refine C82_zero_optimal (id := 2) (dim := 4) (fdim := 2) (alpha := 100) rfl (by decide) _ (between_unit.mpr ⟨rfl, fun a ha => ?_⟩) ?_
  · simp at ha; rcases ha with rfl | rfl <;> norm_num
  · rw [pDistance_ok rfl]
    simp [gVal, sum_range_succ, at0]
    norm_num

end Verif.Props
