import Verif.Proof.Constrained

/-!
# Properties C11-C14, C74: comparing, sorting and testing constrained fitness vectors
-/

set_option autoImplicit false

namespace Verif.Props

open Verif Outcome Spec Con

/-- Arguments `compare_fc` accepts for one fitness vector: as many tolerances as constraints, not more
equalities than constraints. -/
def FcArgs {K : Type} (neq : Nat) (tol : List (Fl K)) (f : List (Fl K)) : Prop :=
  f.length = tol.length + 1 ∧ neq ≤ tol.length

/-- `compare_fc(f, g, neq, tol)` returns true (exact real arithmetic, NaN and infinities included). -/
def FcBetter (neq : Nat) (tol : List (Fl ℝ)) (f g : List (Fl ℝ)) : Prop :=
  compareFc Fl.sqrtR f g neq tol = .ok true

/-! ## C11 -/

/-- C11 (partial): irreflexivity, asymmetry and transitivity hold for all fitness vectors, including
NaN and infinite entries. Missing from a strict weak ordering: transitivity of incomparability, which is
false, see `C11_not_strict_weak_order`. -/
theorem C11_strict_partial_order_partial (neq : Nat) (tol : List (Fl ℝ)) :
    (∀ f, FcArgs neq tol f → ¬ FcBetter neq tol f f) ∧
    (∀ f g, FcArgs neq tol f → FcArgs neq tol g → FcBetter neq tol f g → ¬ FcBetter neq tol g f) ∧
    (∀ f g h, FcArgs neq tol f → FcArgs neq tol g → FcArgs neq tol h →
      FcBetter neq tol f g → FcBetter neq tol g h → FcBetter neq tol f h) := by
  have irr : ∀ f, FcArgs neq tol f → ¬ FcBetter neq tol f f := by
    intro f hf h
    obtain ⟨n, e, i, p⟩ := parts_exist Fl.sqrtR (show Valid f neq tol from hf)
    rw [FcBetter, compareFc_true_iff hf hf p p] at h
    rcases h with h | ⟨_, ⟨_, a, b, ha, hb, hab⟩ | ⟨_, h⟩⟩
    · omega
    · rw [ha] at hb; cases hb; exact lt_irrefl _ hab
    · exact absurd h (not_lt.mpr (m2_le_m1 p.he p.hi))
  have tr : ∀ f g h, FcArgs neq tol f → FcArgs neq tol g → FcArgs neq tol h →
      FcBetter neq tol f g → FcBetter neq tol g h → FcBetter neq tol f h := by
    intro f g h hf hg hh h1 h2
    obtain ⟨n, e, i, p⟩ := parts_exist Fl.sqrtR (show Valid f neq tol from hf)
    obtain ⟨n', e', i', p'⟩ := parts_exist Fl.sqrtR (show Valid g neq tol from hg)
    obtain ⟨n'', e'', i'', p''⟩ := parts_exist Fl.sqrtR (show Valid h neq tol from hh)
    rw [FcBetter, compareFc_true_iff hf hg p p'] at h1
    rw [FcBetter, compareFc_true_iff hg hh p' p''] at h2
    rw [FcBetter, compareFc_true_iff hf hh p p'']
    rcases h1 with h1 | ⟨e1, h1⟩
    · rcases h2 with h2 | ⟨e2, _⟩
      · left; omega
      · left; omega
    · rcases h2 with h2 | ⟨e2, h2⟩
      · left; omega
      · right
        subst e1 e2
        refine ⟨rfl, ?_⟩
        rcases h1 with ⟨k1, a, b, ha, hb, hab⟩ | ⟨k1, h1⟩
        · rcases h2 with ⟨_, a', b', ha', hb', hab'⟩ | ⟨k2, _⟩
          · rw [hb] at ha'; cases ha'
            exact Or.inl ⟨k1, a, b', ha, hb', lt_trans hab hab'⟩
          · exact absurd k1 k2
        · rcases h2 with ⟨k2, _⟩ | ⟨_, h2⟩
          · exact absurd k2 k1
          · exact Or.inr ⟨k1, lt_of_lt_of_le h1
              (le_of_lt (lt_of_le_of_lt (m2_le_m1 p'.he p'.hi) h2))⟩
  exact ⟨irr, fun f g hf hg h1 h2 => irr f hf (tr f g f hf hg hf h1 h2), tr⟩

/-- C11 (partial): a strict weak ordering when all constraints are equalities or all are
inequalities (in particular without constraints). -/
theorem C11_one_kind_partial (neq : Nat) (tol : List (Fl ℝ)) (h : neq = 0 ∨ neq = tol.length) :
    StrictWeakOrder (FcArgs neq tol) (FcBetter neq tol) := by
  obtain ⟨irr, _, tr⟩ := C11_strict_partial_order_partial neq tol
  refine ⟨irr, tr, ?_⟩
  have key : ∀ f, FcArgs neq tol f → ∃ n e i, Parts Fl.sqrtR f neq tol n e i ∧ m1 e i = m2 e i := by
    intro f hf
    obtain ⟨n, e, i, p⟩ := parts_exist Fl.sqrtR (show Valid f neq tol from hf)
    refine ⟨n, e, i, p, ?_⟩
    rcases h with h | h
    · exact m_eq_right (p.he0 h) p.hi
    · exact m_eq_left p.he (p.hi0 h)
  -- negative transitivity suffices
  have nt : ∀ f g k, FcArgs neq tol f → FcArgs neq tol g → FcArgs neq tol k →
      ¬ FcBetter neq tol f g → ¬ FcBetter neq tol g k → ¬ FcBetter neq tol f k := by
    intro f g k hf hg hk h1 h2 h3
    obtain ⟨n, e, i, p, q⟩ := key f hf
    obtain ⟨n', e', i', p', q'⟩ := key g hg
    obtain ⟨n'', e'', i'', p'', q''⟩ := key k hk
    rw [FcBetter, compareFc_true_iff hf hg p p'] at h1
    rw [FcBetter, compareFc_true_iff hg hk p' p''] at h2
    rw [FcBetter, compareFc_true_iff hf hk p p''] at h3
    rw [not_or] at h1 h2
    have hfp : 0 < g.length := by have := hg.1; omega
    rcases h3 with h3 | ⟨e3, h3⟩
    · omega
    · subst e3
      have e1 : n = n' := by omega
      subst e1
      have h1' := h1.2
      have h2' := h2.2
      simp only [true_and, not_or] at h1' h2'
      rcases h3 with ⟨k3, a, b, ha, hb, hab⟩ | ⟨k3, h3⟩
      · have hc : g[0]? = some g[0] := List.getElem?_eq_getElem hfp
        have w1 : ¬ a < g[0] := fun hlt => h1'.1 ⟨k3, a, _, ha, hc, hlt⟩
        have w2 : ¬ g[0] < b := fun hlt => h2'.1 ⟨k3, _, b, hc, hb, hlt⟩
        exact absurd hab (not_lt.mpr (le_trans (not_lt.mp w2) (not_lt.mp w1)))
      · have w1 : ¬ m1 e i < m2 e' i' := fun hlt => h1'.2 ⟨k3, hlt⟩
        have w2 : ¬ m1 e' i' < m2 e'' i'' := fun hlt => h2'.2 ⟨k3, hlt⟩
        rw [q'] at w2
        exact absurd h3 (not_lt.mpr (le_trans (not_lt.mp w2) (not_lt.mp w1)))
  intro f g k hf hg hk h1 h2 h3 h4
  exact ⟨nt f g k hf hg hk h1 h3, nt k g f hk hg hf h4 h2⟩

example : FcArgs 0 [Fl.fin (0 : ℝ), .fin 1] [.fin 3, .nan, .fin 2] := by simp [FcArgs]

/-- helper for the witnesses: closed form on data with one equality and one inequality, both
violated and with zero tolerances -/
private theorem fc_two_violated {x y u v u' v' : ℝ} (hu : 0 < u) (hv : 0 < v) (hu' : 0 < u')
    (hv' : 0 < v') :
    FcBetter 1 [.fin 0, .fin 0] [.fin x, .fin u, .fin v] [.fin y, .fin u', .fin v'] ↔
      u + v < Real.sqrt (u' * u' + v' * v') := by
  have hu0 := hu.le; have hv0 := hv.le; have hu0' := hu'.le; have hv0' := hv'.le
  have e1 : testCons Fl.sqrtR true [Fl.fin u] [.fin 0, .fin 0] = .ok (0, .fin u) := by
    simp [testCons, testLoop, Fl.abs, Fl.sub, Fl.neg, Fl.add, Fl.stdMax, Fl.lt, not_lt.mpr hu0, Fl.le,
      Fl.eq, hu.ne', Fl.mul, Fl.sqrtR, not_lt.mpr (mul_self_nonneg u), Real.sqrt_mul_self hu0]
  have e2 : testCons Fl.sqrtR false [Fl.fin v] [.fin 0] = .ok (0, .fin v) := by
    simp [testCons, testLoop, Fl.sub, Fl.neg, Fl.add, Fl.stdMax, Fl.lt, not_lt.mpr hv0, Fl.le,
      Fl.eq, hv.ne', Fl.mul, Fl.sqrtR, not_lt.mpr (mul_self_nonneg v), Real.sqrt_mul_self hv0]
  have e3 : testCons Fl.sqrtR true [Fl.fin u'] [.fin 0, .fin 0] = .ok (0, .fin u') := by
    simp [testCons, testLoop, Fl.abs, Fl.sub, Fl.neg, Fl.add, Fl.stdMax, Fl.lt, not_lt.mpr hu0', Fl.le,
      Fl.eq, hu'.ne', Fl.mul, Fl.sqrtR, not_lt.mpr (mul_self_nonneg u'), Real.sqrt_mul_self hu0']
  have e4 : testCons Fl.sqrtR false [Fl.fin v'] [.fin 0] = .ok (0, .fin v') := by
    simp [testCons, testLoop, Fl.sub, Fl.neg, Fl.add, Fl.stdMax, Fl.lt, not_lt.mpr hv0', Fl.le,
      Fl.eq, hv'.ne', Fl.mul, Fl.sqrtR, not_lt.mpr (mul_self_nonneg v'), Real.sqrt_mul_self hv0']
  have hs : ¬ (u' * u' + v' * v' < 0) := not_lt.mpr (by positivity)
  simp [FcBetter, compareFc, e1, e2, e3, e4, Fl.add, Fl.mul, Fl.sqrtR, hs]

private theorem sqrt345 (a b c : ℝ) (hc : 0 ≤ c) (h : a * a + b * b = c * c) :
    Real.sqrt (a * a + b * b) = c := by rw [h, Real.sqrt_mul_self hc]

/-- C11 is false: with one equality and one inequality constraint there are three fitness vectors
`f`, `g`, `h` with `f` and `g` incomparable, `g` and `h` incomparable, but `f` better than `h`. -/
theorem C11_not_strict_weak_order :
    ¬ ∀ (neq : Nat) (tol : List (Fl ℝ)), StrictWeakOrder (FcArgs neq tol) (FcBetter neq tol) := by
  intro H
  have h := (H 1 [.fin 0, .fin 0]).incomp [.fin 0, .fin 3, .fin 4]
    [.fin 0, .fin (21 / 5), .fin (28 / 5)] [.fin 0, .fin (24 / 5), .fin (32 / 5)]
    (by simp [FcArgs]) (by simp [FcArgs]) (by simp [FcArgs])
  have s1 := sqrt345 3 4 5 (by norm_num) (by norm_num)
  have s2 := sqrt345 (21 / 5) (28 / 5) 7 (by norm_num) (by norm_num)
  have s3 := sqrt345 (24 / 5) (32 / 5) 8 (by norm_num) (by norm_num)
  rw [fc_two_violated (by norm_num) (by norm_num) (by norm_num) (by norm_num),
    fc_two_violated (by norm_num) (by norm_num) (by norm_num) (by norm_num),
    fc_two_violated (by norm_num) (by norm_num) (by norm_num) (by norm_num),
    fc_two_violated (by norm_num) (by norm_num) (by norm_num) (by norm_num),
    fc_two_violated (by norm_num) (by norm_num) (by norm_num) (by norm_num),
    fc_two_violated (by norm_num) (by norm_num) (by norm_num) (by norm_num), s1, s2, s3] at h
  have := (h (by norm_num) (by norm_num) (by norm_num) (by norm_num)).1
  norm_num at this

/-! ## C12 -/

section generic
variable {K : Type} [Field K] [LinearOrder K] [IsStrictOrderedRing K]

/-- C12: `compare_fc` throws exactly when the sizes are inconsistent (for any square root function). -/
theorem C12_throws_iff (sq : Fl K → Fl K) (f g : List (Fl K)) (neq : Nat) (tol : List (Fl K)) :
    (¬ (FcArgs neq tol f ∧ FcArgs neq tol g) →
      compareFc sq f g neq tol = .throws .invalidArgument) ∧
    (FcArgs neq tol f ∧ FcArgs neq tol g → ∃ r, compareFc sq f g neq tol = .ok r) :=
  ⟨fun h => compareFc_throws h, fun h => compareFc_isOk h.1 h.2⟩

/-- C12: the fitness meeting more constraints is preferred, and never the other way round. -/
theorem C12_more_constraints (sq : Fl K → Fl K) (f g : List (Fl K)) (neq : Nat) (tol : List (Fl K))
    (hf : FcArgs neq tol f) (hg : FcArgs neq tol g)
    (h : numMet 1 neq tol.length g tol < numMet 1 neq tol.length f tol) :
    compareFc sq f g neq tol = .ok true ∧ compareFc sq g f neq tol = .ok false := by
  obtain ⟨n, e, i, p⟩ := parts_exist sq (show Valid f neq tol from hf)
  obtain ⟨n', e', i', p'⟩ := parts_exist sq (show Valid g neq tol from hg)
  rw [compareFc_parts hf hg p p', compareFc_parts hg hf p' p]
  rw [← p.hn, ← p'.hn] at h
  rw [if_neg (by omega), if_neg (by omega)]
  simp [h]; omega

/-- C12: between two feasible fitness vectors the smaller objective wins (NaN last). -/
theorem C12_feasible_objective (sq : Fl K → Fl K) (f g : List (Fl K)) (neq : Nat)
    (tol : List (Fl K)) (hf : FcArgs neq tol f) (hg : FcArgs neq tol g)
    (ff : ∀ i, i < tol.length → Meets 1 neq f tol i) (fg : ∀ i, i < tol.length → Meets 1 neq g tol i) :
    ∃ a b, f[0]? = some a ∧ g[0]? = some b ∧ compareFc sq f g neq tol = .ok (decide (a < b)) := by
  obtain ⟨n, e, i, p⟩ := parts_exist sq (show Valid f neq tol from hf)
  obtain ⟨n', e', i', p'⟩ := parts_exist sq (show Valid g neq tol from hg)
  have h0 : 0 < f.length := by have := hf.1; omega
  have h0' : 0 < g.length := by have := hg.1; omega
  refine ⟨f[0], g[0], List.getElem?_eq_getElem h0, List.getElem?_eq_getElem h0', ?_⟩
  rw [compareFc_parts hf hg p p']
  have e1 : n = tol.length := by rw [p.hn, (numMet_eq_iff 1 neq tol.length f tol).mpr ff]
  have e2 : n' = tol.length := by rw [p'.hn, (numMet_eq_iff 1 neq tol.length g tol).mpr fg]
  rw [if_pos (by omega), if_pos e1, get_of_lt h0, get_of_lt h0']
  simp only [bind_ok, pure_eq]
  congr 1
  rw [Bool.eq_iff_iff]
  simp

example : compareFc id [Fl.fin (5 : ℚ), .fin 0, .fin (-1)] [.fin 1, .fin 0, .fin 3] 1
    [.fin 0, .fin 0] = .ok true := by decide +kernel

example : numMet 1 1 2 [Fl.fin (5 : ℚ), .fin 0, .fin (-1)] [.fin 0, .fin 0] = 2 := by
  rw [numMet_eq_iff]
  intro i hi
  match i, hi with
  | 0, _ => exact ⟨_, _, rfl, rfl, by simp [Within, Fl.abs, Fl.isInf]⟩
  | 1, _ => exact ⟨_, _, rfl, rfl, by simp [Within, Fl.isInf]⟩

/-! ## C14 -/

/-- C14: `feasibility_f` throws exactly on a wrong fitness size. -/
theorem C14_throws (sq : Fl K → Fl K) (nobj nec nic : Nat) (tol f : List (Fl K))
    (h : f.length ≠ nobj + nec + nic) :
    feasibilityF sq nobj nec nic tol f = .throws .invalidArgument := by
  simp [feasibilityF, h]

/-- C14: exact characterisation, for all tolerances (`Within` excludes `inf` against tolerance `inf`). -/
theorem C14_feasible_iff_within (sq : Fl K → Fl K) (nobj nec nic : Nat) (tol f : List (Fl K))
    (hf : f.length = nobj + nec + nic) (ht : tol.length = nec + nic) :
    ∃ r, feasibilityF sq nobj nec nic tol f = .ok r ∧
      (r = true ↔ ∀ i, i < nec + nic → Meets nobj nec f tol i) := by
  obtain ⟨e, he, -, -⟩ := testCons_spec sq true ((f.drop nobj).take nec) tol (by simp; omega)
  obtain ⟨i, hi, -, -⟩ := testCons_spec sq false (f.drop (nobj + nec)) (tol.drop nec)
    (by simp; omega)
  unfold feasibilityF
  rw [if_neg (by omega), he, hi]
  simp only [bind_ok, pure_eq]
  refine ⟨_, rfl, ?_⟩
  rw [cnt_split nobj nec nic f tol hf ht, beq_iff_eq, numMet_eq_iff]

/-- C14 (partial): for finite tolerances, feasible means every equality has `|c| <= tol` and every
inequality `c <= tol` in the sense of C++ comparisons (so no NaN). Missing: infinite tolerances, see
`C14_infinite_tolerance`. -/
theorem C14_feasible_iff_partial (sq : Fl K → Fl K) (nobj nec nic : Nat) (tol f : List (Fl K))
    (hf : f.length = nobj + nec + nic) (ht : tol.length = nec + nic)
    (hfin : ∀ t ∈ tol, t.isFinite = true) :
    ∃ r, feasibilityF sq nobj nec nic tol f = .ok r ∧
      (r = true ↔
        (∀ i c t, i < nec → f[nobj + i]? = some c → tol[i]? = some t → Fl.le (Fl.abs c) t = true) ∧
        (∀ i c t, nec ≤ i → f[nobj + i]? = some c → tol[i]? = some t → Fl.le c t = true)) := by
  obtain ⟨r, hr, h⟩ := C14_feasible_iff_within sq nobj nec nic tol f hf ht
  refine ⟨r, hr, ?_⟩
  rw [h]
  have hw : ∀ c t : Fl K, t.isFinite = true → (Within c t ↔ Fl.le c t = true) := by
    intro c t htf
    cases c <;> cases t <;> simp [Within, Fl.isFinite, Fl.isInf, Fl.le, Fl.lt, Fl.eq, Fl.lt_def,
      Fl.cls, le_iff_lt_or_eq] at *
  constructor
  · intro H
    constructor
    · intro i c t hi hc htt
      obtain ⟨c', t', hc', ht', hW⟩ := H i (by omega)
      rw [hc] at hc'; rw [htt] at ht'; cases hc'; cases ht'
      rw [if_pos hi] at hW
      exact (hw _ _ (hfin _ (List.mem_of_getElem? htt))).mp hW
    · intro i c t hi hc htt
      obtain ⟨c', t', hc', ht', hW⟩ := H i (by
        have := (List.getElem?_eq_some_iff.mp htt).1; omega)
      rw [hc] at hc'; rw [htt] at ht'; cases hc'; cases ht'
      rw [if_neg (by omega)] at hW
      exact (hw _ _ (hfin _ (List.mem_of_getElem? htt))).mp hW
  · rintro ⟨h1, h2⟩ i hi
    have hi1 : nobj + i < f.length := by omega
    have hi2 : i < tol.length := by omega
    refine ⟨f[nobj + i], tol[i], List.getElem?_eq_getElem hi1, List.getElem?_eq_getElem hi2, ?_⟩
    rw [hw _ _ (hfin _ (List.getElem_mem hi2))]
    split
    · rename_i hlt
      exact h1 i _ _ hlt (List.getElem?_eq_getElem hi1) (List.getElem?_eq_getElem hi2)
    · rename_i hlt
      exact h2 i _ _ (by omega) (List.getElem?_eq_getElem hi1) (List.getElem?_eq_getElem hi2)

end generic

/-- C14 is false for an infinite tolerance, which `set_c_tol` accepts: a constraint value of `+inf` is
`<=` the tolerance but is reported infeasible. -/
theorem C14_infinite_tolerance :
    setCTol 1 [Fl.pinf (K := ℚ)] = .ok [.pinf] ∧ Fl.le (Fl.pinf (K := ℚ)) .pinf = true ∧
    feasibilityF id 1 0 1 [Fl.pinf (K := ℚ)] [.fin 0, .pinf] = .ok false := by decide +kernel

example : feasibilityF id 1 1 2 [Fl.fin (1/2 : ℚ), .fin 0, .fin 1] [.nan, .fin (-1/2), .fin 0, .ninf]
    = .ok true := by decide +kernel

/-! ## C13 -/

/-- C13 (partial): with one kind of constraints, for well-sized input, the result is a permutation of the
indices and nobody is preferred to an individual placed before. Missing: mixed constraints, where the
comparator is not a strict weak ordering and `std::sort` has undefined behaviour
(`C13_sort_undefined_behaviour`). -/
theorem C13_sort_partial (srt : (Nat → Nat → Bool) → List Nat → List Nat) (hsrt : ValidSort srt)
    (fs : List (List (Fl ℝ))) (neq : Nat) (tol : List (Fl ℝ)) (hk : neq = 0 ∨ neq = tol.length)
    (hv : ∀ f ∈ fs, FcArgs neq tol f) :
    (sortPopulationCon srt Fl.sqrtR fs neq tol).Sat (fun idx =>
      idx.Perm (List.range fs.length) ∧
      idx.Pairwise (fun i j => ∀ f g, fs[i]? = some f → fs[j]? = some g →
        ¬ FcBetter neq tol g f)) := by
  have swo := C11_one_kind_partial neq tol hk
  unfold sortPopulationCon
  split
  · rename_i h0
    have : fs = [] := List.length_eq_zero_iff.mp h0
    subst this
    simp
  · split
    · rename_i h1
      rw [sat_ok, h1]
      exact ⟨by decide, by simp⟩
    · have hno : (fs.any fun a => fs.any fun b =>
          compareFc Fl.sqrtR a b neq tol == .throws .invalidArgument) = false := by
        rw [← Bool.not_eq_true]
        simp only [List.any_eq_true, beq_iff_eq, not_exists, not_and]
        intro a ha b hb he
        obtain ⟨r, hr⟩ := compareFc_isOk (sq := Fl.sqrtR) (hv a ha) (hv b hb)
        rw [hr] at he; cases he
      rw [hno]
      simp only [Bool.false_eq_true, if_false]
      have hlt : ∀ i j, i < fs.length → j < fs.length →
          (conLt Fl.sqrtR fs neq tol i j = true ↔ ∃ f g, fs[i]? = some f ∧ fs[j]? = some g ∧
            FcBetter neq tol f g) := by
        intro i j hi hj
        simp [conLt, List.getElem?_eq_getElem hi, List.getElem?_eq_getElem hj, FcBetter]
      have hlt' : ∀ i j (hi : i < fs.length) (hj : j < fs.length),
          (conLt Fl.sqrtR fs neq tol i j = true ↔ FcBetter neq tol fs[i] fs[j]) := by
        intro i j hi hj
        simp [conLt, List.getElem?_eq_getElem hi, List.getElem?_eq_getElem hj, FcBetter]
      have hlf' : ∀ i j (hi : i < fs.length) (hj : j < fs.length),
          (conLt Fl.sqrtR fs neq tol i j = false ↔ ¬ FcBetter neq tol fs[i] fs[j]) := by
        intro i j hi hj
        rw [← hlt' i j hi hj]; simp
      have hswo : swoOn (conLt Fl.sqrtR fs neq tol) (List.range fs.length) = true := by
        rw [swoOn_iff]
        simp only [List.mem_range]
        refine ⟨fun a ha => ?_, fun a ha b hb c hc => ?_, fun a ha b hb c hc => ?_⟩
        · rw [hlf' a a ha ha]; exact swo.irrefl _ (hv _ (List.getElem_mem ha))
        · rw [hlt' a b ha hb, hlt' b c hb hc, hlt' a c ha hc]
          exact swo.trans _ _ _ (hv _ (List.getElem_mem ha)) (hv _ (List.getElem_mem hb))
            (hv _ (List.getElem_mem hc))
        · rw [hlf' a b ha hb, hlf' b a hb ha, hlf' b c hb hc, hlf' c b hc hb, hlf' a c ha hc,
            hlf' c a hc ha]
          exact swo.incomp _ _ _ (hv _ (List.getElem_mem ha)) (hv _ (List.getElem_mem hb))
            (hv _ (List.getElem_mem hc))
      refine (stdSort_sat hsrt hswo).mono ?_
      rintro idx ⟨hp, hs⟩
      refine ⟨hp, hs.imp ?_⟩
      intro i j hf f g hfi hgj hb
      obtain ⟨hi, rfl⟩ := List.getElem?_eq_some_iff.mp hfi
      obtain ⟨hj, rfl⟩ := List.getElem?_eq_some_iff.mp hgj
      rw [hlf' j i hj hi] at hf
      exact hf hb

/-- C13: inconsistent sizes (two or more individuals) make the call throw. -/
theorem C13_sort_throws (srt : (Nat → Nat → Bool) → List Nat → List Nat)
    (fs : List (List (Fl ℝ))) (neq : Nat) (tol : List (Fl ℝ)) (h2 : 2 ≤ fs.length)
    (hv : ∃ f ∈ fs, ¬ FcArgs neq tol f) :
    sortPopulationCon srt Fl.sqrtR fs neq tol = .throws .invalidArgument := by
  unfold sortPopulationCon
  rw [if_neg (by omega), if_neg (by omega), if_pos]
  obtain ⟨f, hf, hnf⟩ := hv
  simp only [List.any_eq_true, beq_iff_eq]
  exact ⟨f, hf, f, hf, compareFc_throws (fun h => hnf h.1)⟩

/-- C13 is false for mixed constraints: on these three individuals `std::sort` is called with a
comparator that is not a strict weak ordering, i.e. undefined behaviour, whatever the sort routine. -/
theorem C13_sort_undefined_behaviour (srt : (Nat → Nat → Bool) → List Nat → List Nat) :
    sortPopulationCon srt Fl.sqrtR
      [[.fin 0, .fin 3, .fin 4], [.fin 0, .fin (21 / 5), .fin (28 / 5)],
       [.fin 0, .fin (24 / 5), .fin (32 / 5)]] 1 [.fin 0, .fin 0] = .ub := by
  have s1 := sqrt345 3 4 5 (by norm_num) (by norm_num)
  have s2 := sqrt345 (21 / 5) (28 / 5) 7 (by norm_num) (by norm_num)
  have s3 := sqrt345 (24 / 5) (32 / 5) 8 (by norm_num) (by norm_num)
  set fs : List (List (Fl ℝ)) := [[.fin 0, .fin 3, .fin 4], [.fin 0, .fin (21 / 5), .fin (28 / 5)],
       [.fin 0, .fin (24 / 5), .fin (32 / 5)]] with hfs
  have hv : ∀ f ∈ fs, Valid f 1 [Fl.fin (0:ℝ), .fin 0] := by
    intro f hf; simp [hfs] at hf; rcases hf with rfl | rfl | rfl <;> simp [Valid]
  have hno : (fs.any fun a => fs.any fun b =>
      compareFc Fl.sqrtR a b 1 [.fin 0, .fin 0] == .throws .invalidArgument) = false := by
    rw [← Bool.not_eq_true]
    simp only [List.any_eq_true, beq_iff_eq, not_exists, not_and]
    intro a ha b hb he
    obtain ⟨r, hr⟩ := compareFc_isOk (sq := Fl.sqrtR) (hv a ha) (hv b hb)
    rw [hr] at he; cases he
  have c : ∀ i j f g, fs[i]? = some f → fs[j]? = some g →
      (conLt Fl.sqrtR fs 1 [.fin 0, .fin 0] i j = true ↔ FcBetter 1 [.fin 0, .fin 0] f g) := by
    intro i j f g h1 h2; simp [conLt, h1, h2, FcBetter]
  have cf : ∀ i j f g, fs[i]? = some f → fs[j]? = some g →
      (conLt Fl.sqrtR fs 1 [.fin 0, .fin 0] i j = false ↔ ¬ FcBetter 1 [.fin 0, .fin 0] f g) := by
    intro i j f g h1 h2; rw [← c i j f g h1 h2]; simp
  have hswo : swoOn (conLt Fl.sqrtR fs 1 [.fin 0, .fin 0]) (List.range fs.length) = false := by
    rw [← Bool.not_eq_true, swoOn_iff]
    rintro ⟨_, _, h⟩
    have := h 0 (by simp [hfs]) 1 (by simp [hfs]) 2 (by simp [hfs])
    rw [cf 0 1 _ _ rfl rfl, cf 1 0 _ _ rfl rfl, cf 1 2 _ _ rfl rfl, cf 2 1 _ _ rfl rfl,
      cf 0 2 _ _ rfl rfl, cf 2 0 _ _ rfl rfl,
      fc_two_violated (by norm_num) (by norm_num) (by norm_num) (by norm_num),
      fc_two_violated (by norm_num) (by norm_num) (by norm_num) (by norm_num),
      fc_two_violated (by norm_num) (by norm_num) (by norm_num) (by norm_num),
      fc_two_violated (by norm_num) (by norm_num) (by norm_num) (by norm_num),
      fc_two_violated (by norm_num) (by norm_num) (by norm_num) (by norm_num),
      fc_two_violated (by norm_num) (by norm_num) (by norm_num) (by norm_num), s1, s2, s3] at this
    have := (this (by norm_num) (by norm_num) (by norm_num) (by norm_num)).1
    norm_num at this
  have hl : fs.length = 3 := by simp [hfs]
  unfold sortPopulationCon
  rw [if_neg (by omega), if_neg (by omega), hno]
  simp only [Bool.false_eq_true, if_false, stdSort, hswo]

/-! ## C74 -/

/-- C74 (partial): between two infeasible finite fitness vectors meeting the same number of
constraints, `compare_fc` prefers the first only if its L2 constraint violation is smaller.
Missing: the converse, false by `C74_smaller_violation_not_preferred`. -/
theorem C74_violation_order_partial (x y : ℝ) (c d tol : List ℝ) (neq : Nat)
    (hc : c.length = tol.length) (hd : d.length = tol.length) (hneq : neq ≤ tol.length)
    (hsame : numMet 1 neq tol.length ((x :: c).map Fl.fin) (tol.map Fl.fin) =
      numMet 1 neq tol.length ((y :: d).map Fl.fin) (tol.map Fl.fin))
    (hinf : numMet 1 neq tol.length ((x :: c).map Fl.fin) (tol.map Fl.fin) ≠ tol.length)
    (h : FcBetter neq (tol.map Fl.fin) ((x :: c).map Fl.fin) ((y :: d).map Fl.fin)) :
    l2viol neq c tol < l2viol neq d tol := by
  have hf : Valid ((x :: c).map Fl.fin) neq (tol.map Fl.fin) := by
    constructor <;> simp [hc, hneq]
  have hg : Valid ((y :: d).map Fl.fin) neq (tol.map Fl.fin) := by
    constructor <;> simp [hd, hneq]
  obtain ⟨n, e, i, p⟩ := parts_exist Fl.sqrtR hf
  obtain ⟨n', e', i', p'⟩ := parts_exist Fl.sqrtR hg
  rw [FcBetter, compareFc_true_iff hf hg p p'] at h
  have hn := p.hn; have hn' := p'.hn
  rw [List.length_map] at hn hn'
  rcases h with h | ⟨_, ⟨h, _⟩ | ⟨_, h⟩⟩
  · omega
  · rw [List.length_map] at h; omega
  · have h2 := lt_of_le_of_lt (m2_le_m1 p.he p.hi) h
    rw [(measures_fin hc hneq p).1, (measures_fin hd hneq p').1] at h2
    exact h2

/-- C74: the converse fails. Violations (3,4) have L2 norm 5, violations (3.6,4.8) have norm 6, both
fitnesses meet no constraint, and yet neither is preferred. -/
theorem C74_smaller_violation_not_preferred :
    l2viol 1 [3, 4] [0, 0] = 5 ∧ l2viol 1 [18 / 5, 24 / 5] [0, 0] = 6 ∧
    ¬ FcBetter 1 [.fin 0, .fin 0] [.fin 0, .fin 3, .fin 4] [.fin 0, .fin (18 / 5), .fin (24 / 5)] := by
  refine ⟨?_, ?_, ?_⟩
  · simp [l2viol, viol]
    rw [show (3:ℝ) ^ 2 + 4 ^ 2 = 5 * 5 by norm_num, Real.sqrt_mul_self (by norm_num)]
  · have h1 : |(18 / 5 : ℝ)| = 18 / 5 := abs_of_pos (by norm_num)
    simp only [l2viol, viol, List.take, List.drop, List.zipWith, List.sum_cons, List.sum_nil, h1,
      if_true, sub_zero, Bool.false_eq_true, if_false]
    rw [max_eq_left (by norm_num), max_eq_left (by norm_num)]
    rw [show ((18 / 5 : ℝ) ^ 2 + 0) + ((24 / 5) ^ 2 + 0) = 6 * 6 by norm_num,
      Real.sqrt_mul_self (by norm_num)]
  · rw [fc_two_violated (by norm_num) (by norm_num) (by norm_num) (by norm_num),
      sqrt345 (18 / 5) (24 / 5) 6 (by norm_num) (by norm_num)]
    norm_num

end Verif.Props
