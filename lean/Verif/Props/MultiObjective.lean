import Verif.Proof.Front2d

/-!
# Properties C01-C04, C07: dominance, non-dominated sorting, two-objective front, ideal and nadir
-/

set_option autoImplicit false

namespace Verif.Props

open Verif Outcome Spec MO

variable {K : Type} [LinearOrder K]

/-! ## C01 -/

/-- C01: `pareto_dominance` throws iff the lengths differ, and otherwise decides dominance. -/
theorem C01_pareto_dominance (a b : List (Fl K)) :
    (a.length ≠ b.length → paretoDominance a b = .throws .invalidArgument) ∧
    (a.length = b.length → ∃ r, paretoDominance a b = .ok r ∧ (r = true ↔ Dominates a b)) :=
  ⟨fun h => by simp [paretoDominance, h], paretoDominance_spec a b⟩

/-- C01: never true of a vector and itself. -/
theorem C01_irreflexive (a : List (Fl K)) : paretoDominance a a = .ok false := by
  obtain ⟨r, h, hr⟩ := paretoDominance_spec a a rfl
  cases r with
  | false => exact h
  | true => exact absurd (hr.mp rfl) (dominates_irrefl a)

/-- C01: if `a` dominates `b` then `b` does not dominate `a`. -/
theorem C01_asymmetric (a b : List (Fl K)) (h : paretoDominance a b = .ok true) :
    paretoDominance b a = .ok false := by
  by_cases hl : a.length = b.length
  · obtain ⟨r, e, hr⟩ := paretoDominance_spec a b hl
    obtain ⟨r', e', hr'⟩ := paretoDominance_spec b a hl.symm
    rw [h] at e
    have hr1 : r = true := by cases e; rfl
    cases r' with
    | false => exact e'
    | true => exact absurd (hr'.mp rfl) (dominates_asymm (hr.mp hr1))
  · simp [paretoDominance, hl] at h

/-- C01: transitivity. -/
theorem C01_transitive (a b c : List (Fl K)) (h1 : paretoDominance a b = .ok true)
    (h2 : paretoDominance b c = .ok true) : paretoDominance a c = .ok true := by
  have l1 : a.length = b.length := by
    by_contra hl; simp [paretoDominance, hl] at h1
  have l2 : b.length = c.length := by
    by_contra hl; simp [paretoDominance, hl] at h2
  obtain ⟨r1, e1, hr1⟩ := paretoDominance_spec a b l1
  obtain ⟨r2, e2, hr2⟩ := paretoDominance_spec b c l2
  obtain ⟨r3, e3, hr3⟩ := paretoDominance_spec a c (l1.trans l2)
  rw [h1] at e1; rw [h2] at e2
  have t1 : r1 = true := by cases e1; rfl
  have t2 : r2 = true := by cases e2; rfl
  have := dominates_trans (hr1.mp t1) (hr2.mp t2)
  rw [e3, hr3.mpr this]

example : paretoDominance [Fl.fin (1 : ℚ), .fin 2, .nan] [.fin 1, .pinf, .nan] = .ok true ∧
    paretoDominance [Fl.fin (1 : ℚ), .pinf, .nan] [.fin 1, .nan, .nan] = .ok true := by decide +kernel

/-! ## C02, C03 -/

/-- C02: fewer than two points, or points of different sizes, make the call throw. -/
theorem C02_fnds_throws (pts : List (List (Fl K))) (h : pts.length < 2 ∨ ¬ SameLength pts) :
    fnds pts = .throws .invalidArgument := by
  unfold fnds
  by_cases hn : pts.length < 2
  · rw [if_pos hn]
  · rw [if_neg hn, fndsBuild_throws (h.resolve_left hn)]; rfl

/-- C02: otherwise the call returns the dominance layers, the ranks are the front numbers and the
domination lists are exact and free of repetitions. (`Sat` also says: no exception, no out-of-range
access, the loop terminates.) -/
theorem C02_fnds_layers (pts : List (List (Fl K))) (hn : 2 ≤ pts.length) (hs : SameLength pts) :
    (fnds pts).Sat (fun t =>
      IsLayering pts t.fronts ∧
      t.rank.length = pts.length ∧
      (∀ i k, i < pts.length → (t.rank[i]? = some k ↔ ∃ f, t.fronts[k]? = some f ∧ i ∈ f)) ∧
      t.domList.length = pts.length ∧
      (∀ i l, t.domList[i]? = some l → l.Nodup ∧ ∀ j, j ∈ l ↔ DomIdx pts i j)) := by
  refine (fnds_sat hn hs).mono ?_
  rintro t ⟨hR, hL, hrl, hall⟩
  have hD : ∀ a b, DomIdx pts a b → a < pts.length ∧ b < pts.length := by
    rintro a b ⟨h1, h2, _⟩; exact ⟨h1, h2⟩
  have uniq : ∀ (m m' : Nat) (f f' : List Nat) (i : Nat), t.fronts[m]? = some f →
      t.fronts[m']? = some f' → i ∈ f → i ∈ f' → m = m' := by
    intro m m' f f' i h1 h2 h3 h4
    have e1 := hL.rank m f h1 i h3
    have e2 := hL.rank m' f' h2 i h4
    rw [e1] at e2
    exact Option.some.inj e2
  have find : ∀ i, i < pts.length → ∃ (m : Nat) (f : List Nat), t.fronts[m]? = some f ∧ i ∈ f := by
    intro i hi
    obtain ⟨f, hf, hif⟩ := List.mem_flatten.mp (hall i hi)
    obtain ⟨m, hm, rfl⟩ := List.getElem_of_mem hf
    exact ⟨m, _, List.getElem?_eq_getElem hm, hif⟩
  have inlt : ∀ (m : Nat) (f : List Nat) (i : Nat), t.fronts[m]? = some f → i ∈ f →
      i < pts.length := fun m f i h1 h2 =>
    hL.lt i (List.mem_flatten.mpr ⟨f, List.mem_of_getElem? h1, h2⟩)
  refine ⟨⟨?_, hL.ne, ?_, ?_⟩, hrl, ?_, hR.len1, ?_⟩
  · rw [List.perm_ext_iff_of_nodup hL.nodup List.nodup_range]
    intro a
    rw [List.mem_range]
    exact ⟨hL.lt a, hall a⟩
  · intro h i
    have h0 : t.fronts[0]? = some t.fronts[0] := List.getElem?_eq_getElem h
    constructor
    · intro hi
      refine ⟨inlt 0 _ i h0 hi, ?_⟩
      intro j hj
      obtain ⟨m', f', h1, _⟩ := hL.dom 0 _ h0 i hi j hj
      omega
    · rintro ⟨hi, hno⟩
      obtain ⟨m, f, hf, hif⟩ := find i hi
      cases m with
      | zero =>
        rw [h0] at hf; cases hf; exact hif
      | succ m =>
        have hm : m < t.fronts.length := by
          have := (List.getElem?_eq_some_iff.mp hf).1; omega
        obtain ⟨j, _, hj⟩ := hL.prev m f _ hf (List.getElem?_eq_getElem hm) i hif
        exact absurd hj (hno j)
  · intro k h i
    have hk1 : t.fronts[k + 1]? = some t.fronts[k + 1] := List.getElem?_eq_getElem h
    have hk : t.fronts[k]? = some t.fronts[k] := List.getElem?_eq_getElem (by omega)
    constructor
    · intro hi
      refine ⟨inlt _ _ i hk1 hi, ?_, ?_⟩
      · intro j hj
        obtain ⟨m', f', h1, h2, h3⟩ := hL.dom _ _ hk1 i hi j hj
        exact ⟨m', f', by omega, h2, h3⟩
      · obtain ⟨j, hj, hji⟩ := hL.prev k _ _ hk1 hk i hi
        exact ⟨j, hji, hj⟩
    · rintro ⟨hi, hall', j, hj, hjk⟩
      obtain ⟨m, f, hf, hif⟩ := find i hi
      obtain ⟨m', f', h1, h2, h3⟩ := hL.dom m f hf i hif j hj
      have e : m' = k := uniq m' k f' _ j h2 hk h3 hjk
      have hm : m = k + 1 := by
        by_contra hne
        obtain ⟨m1, rfl⟩ : ∃ m1, m = m1 + 1 := ⟨m - 1, by omega⟩
        have hm1 : m1 < t.fronts.length := by
          have := (List.getElem?_eq_some_iff.mp hf).1; omega
        obtain ⟨x, hx, hxi⟩ := hL.prev m1 f _ hf (List.getElem?_eq_getElem hm1) i hif
        obtain ⟨k', g, hk', hg, hxg⟩ := hall' x hxi
        have := uniq k' m1 g _ x hg (List.getElem?_eq_getElem hm1) hxg hx
        omega
      subst hm
      rw [hk1] at hf; cases hf; exact hif
  · intro i k hi
    constructor
    · intro hr
      obtain ⟨m, f, hf, hif⟩ := find i hi
      have := hL.rank m f hf i hif
      rw [hr] at this
      cases this
      exact ⟨f, hf, hif⟩
    · rintro ⟨f, hf, hif⟩
      exact hL.rank k f hf i hif
  · intro i l hl
    exact ⟨hR.nodup i l hl, hR.mem i l hl⟩

open Classical in
/-- C03: entry `i` of the returned domination count is the number of points dominating point `i`. -/
theorem C03_domination_count (pts : List (List (Fl K))) (hn : 2 ≤ pts.length)
    (hs : SameLength pts) :
    (fnds pts).Sat (fun t => t.domCount.length = pts.length ∧
      ∀ i, i < pts.length →
        t.domCount[i]? = some ((Finset.range pts.length).filter (fun j => DomIdx pts j i)).card) := by
  refine (fnds_sat hn hs).mono ?_
  rintro t ⟨hR, _⟩
  have hlen : t.domCount.length = pts.length := hR.len2
  refine ⟨hlen, ?_⟩
  intro i hi
  have hi' : i < t.domCount.length := by omega
  have := hR.count i _ (List.getElem?_eq_getElem hi')
  rw [List.getElem?_eq_getElem hi']
  exact congrArg some this

/-- Non-vacuity of C02/C03 (the documentation example), and the value computed by the model. -/
example : fnds [[Fl.fin (1 : ℚ), .fin 2, .fin 3], [.fin (-2), .fin 3, .fin 7],
      [.fin (-1), .fin (-2), .fin (-3)], [.fin 0, .fin 0, .fin 0]] =
    .ok { fronts := [[1, 2], [3], [0]], domList := [[], [], [0, 3], [0]],
          domCount := [2, 0, 0, 1], rank := [2, 0, 0, 1] } := by decide +kernel

/-! ## C04 -/

/-- C04: for two-objective points the result lists exactly the non-dominated indices, once each,
for every sort routine meeting the contract of `std::sort`; the comparator is always a strict weak
ordering (no undefined behaviour), whatever the values. -/
theorem C04_front_2d (srt : (Nat → Nat → Bool) → List Nat → List Nat) (hsrt : ValidSort srt)
    (pts : List (List (Fl K))) (h2 : ∀ p ∈ pts, p.length = 2) :
    (nonDominatedFront2d srt pts).Sat (fun f => f.Nodup ∧
      ∀ i, i ∈ f ↔ i < pts.length ∧ ∀ j, ¬ DomIdx pts j i) :=
  front2d_sat hsrt h2

/-- C04: any other non-empty input is rejected. -/
theorem C04_front_2d_throws (srt : (Nat → Nat → Bool) → List Nat → List Nat)
    (pts : List (List (Fl K))) (h2 : ¬ ∀ p ∈ pts, p.length = 2) :
    nonDominatedFront2d srt pts = .throws .invalidArgument := by
  unfold nonDominatedFront2d
  cases hp : pts with
  | nil => simp [hp] at h2
  | cons p0 rest =>
    simp only
    rw [← hp]
    split
    · rfl
    · rename_i h1
      split
      · rfl
      · rename_i h3
        exfalso
        apply h2
        simp only [Bool.not_eq_true', Bool.not_eq_false, List.all_eq_true, beq_iff_eq] at h1
        intro p hpm
        rw [h1 p hpm]
        simpa using h3

example : nonDominatedFront2d insSort [[Fl.fin (1 : ℚ), .fin 1], [.fin 0, .fin 2], [.fin 1, .fin 1],
      [.fin 0, .nan], [.fin 3, .ninf]] = .ok [1, 2, 0, 4] := by decide +kernel

/-! ## C07 -/

/-- C07: `ideal` throws exactly on differently sized points, otherwise every entry is the smallest
value of that objective. -/
theorem C07_ideal (pts : List (List (Fl K))) (hne : pts ≠ []) :
    (¬ SameLength pts → ideal pts = .throws .invalidArgument) ∧
    (SameLength pts → (ideal pts).Sat (fun z =>
      (∀ p ∈ pts, z.length = p.length) ∧
      ∀ (i : Nat) (m : Fl K), z[i]? = some m → (∃ p ∈ pts, p[i]? = some m) ∧
        ∀ p ∈ pts, ∀ x, p[i]? = some x → m ≤ x)) := by
  unfold ideal
  cases hp : pts with
  | nil => exact absurd hp hne
  | cons p0 rest =>
    simp only
    rw [← hp]
    have hp0 : p0 ∈ pts := by rw [hp]; simp
    constructor
    · intro hs
      rw [if_pos]
      simp only [List.any_eq_true, bne_iff_ne]
      by_contra hc
      push Not at hc
      exact hs (fun p hp q hq => (hc p hp).trans (hc q hq).symm)
    · intro hs
      rw [if_neg (by
        simp only [List.any_eq_true, bne_iff_ne, not_exists, not_and, not_not]
        exact fun p hpm => hs p hpm p0 hp0)]
      refine (mapM_sat _ (fun i hi => minElem_sat hne ?_)).mono ?_
      · intro p hpm
        rw [hs p hpm p0 hp0]; exact List.mem_range.mp hi
      · intro z hz
        obtain ⟨h1, h2⟩ := forall₂_range hz
        exact ⟨fun p hpm => h1.trans (hs p0 hp0 p hpm), h2⟩

/-- C07 (partial): with at least two equally sized points, every entry of `nadir` is the largest
value of that objective among the non-dominated points. Missing: a single point, see
`C07_nadir_single_point_throws`. -/
theorem C07_nadir_partial (pts : List (List (Fl K))) (hn : 2 ≤ pts.length) (hs : SameLength pts) :
    (nadir pts).Sat (fun z =>
      (∀ p ∈ pts, z.length = p.length) ∧
      ∀ (i : Nat) (m : Fl K), z[i]? = some m →
        (∃ (j : Nat) (p : List (Fl K)), (∀ k, ¬ DomIdx pts k j) ∧ pts[j]? = some p ∧ p[i]? = some m) ∧
        ∀ (j : Nat) (p : List (Fl K)), (∀ k, ¬ DomIdx pts k j) → pts[j]? = some p → ∀ x, p[i]? = some x → x ≤ m) := by
  have hmain := C02_fnds_layers pts hn hs
  unfold nadir
  cases hp : pts with
  | nil => simp [hp] at hn
  | cons p0 rest =>
    simp only
    rw [← hp]
    have hp0 : p0 ∈ pts := by rw [hp]; simp
    refine hmain.bind ?_
    rintro t ⟨hL, -, -, -, -⟩
    have hpos : 0 < t.fronts.length := by
      rw [List.length_pos_iff]
      intro h0
      have := hL.partition
      rw [h0] at this
      have := this.length_eq
      simp at this
      omega
    rw [get_of_lt hpos, bind_ok]
    have hfirst := hL.first hpos
    have hfne : t.fronts[0] ≠ [] := hL.nonempty _ (List.getElem_mem hpos)
    generalize t.fronts[0] = f0 at hfirst hfne
    refine (mapM_sat (P := fun i p => pts[i]? = some p) f0 ?_).bind ?_
    · intro i hi
      have hi' := ((hfirst i).mp hi).1
      rw [get_of_lt hi', sat_ok]
      exact List.getElem?_eq_getElem hi'
    · intro nd hnd
      have hnd1 : ∀ p ∈ nd, ∃ i ∈ f0, pts[i]? = some p := by
        intro p hpm
        obtain ⟨m, hm, rfl⟩ := List.getElem_of_mem hpm
        have h := List.forall₂_iff_get.mp hnd
        have hm' : m < f0.length := by rw [h.1]; exact hm
        exact ⟨f0[m], List.getElem_mem hm', h.2 m hm' hm⟩
      have hnd2 : ∀ i ∈ f0, ∃ p ∈ nd, pts[i]? = some p := by
        intro i hi
        obtain ⟨m, hm, rfl⟩ := List.getElem_of_mem hi
        have h := List.forall₂_iff_get.mp hnd
        have hm' : m < nd.length := by rw [← h.1]; exact hm
        exact ⟨nd[m], List.getElem_mem hm', h.2 m hm hm'⟩
      have hndne : nd ≠ [] := by
        intro h0
        rw [h0] at hnd
        cases hnd
        exact hfne rfl
      refine (mapM_sat _ (fun i hi => maxElem_sat hndne ?_)).mono ?_
      · intro p hpm
        obtain ⟨j, _, hj⟩ := hnd1 p hpm
        rw [hs p (List.mem_of_getElem? hj) p0 hp0]; exact List.mem_range.mp hi
      · intro z hz
        obtain ⟨h1, h2⟩ := forall₂_range hz
        refine ⟨fun p hpm => h1.trans (hs p0 hp0 p hpm), ?_⟩
        intro i m hm
        obtain ⟨⟨p, hpm, hpi⟩, h4⟩ := h2 i m hm
        obtain ⟨j, hj, hjp⟩ := hnd1 p hpm
        refine ⟨⟨j, p, ((hfirst j).mp hj).2, hjp, hpi⟩, ?_⟩
        intro j' p' hno hj' x hx
        have hj'' : j' ∈ f0 := (hfirst j').mpr ⟨(List.getElem?_eq_some_iff.mp hj').1, hno⟩
        obtain ⟨q, hq, hq'⟩ := hnd2 j' hj''
        rw [hj'] at hq'
        cases hq'
        exact h4 p' hq x hx

/-- C07 is false for a single point: `nadir` throws instead of returning it. -/
theorem C07_nadir_single_point_throws (p : List (Fl K)) :
    nadir [p] = .throws .invalidArgument := rfl

example : nadir [[Fl.fin (0 : ℚ), .fin 7], [.fin 1, .fin 5], [.fin 2, .fin 3], [.fin 4, .fin 2],
    [.fin 7, .fin 1], [.fin 10, .fin 0], [.fin 6, .fin 6], [.fin 9, .fin 15]] =
    .ok [.fin 10, .fin 7] := by decide +kernel

example : ideal [[Fl.fin (-1 : ℚ), .fin 3, .fin 597], [.fin 1, .fin 2, .fin 3645],
    [.fin 2, .nan, .fin 789], [.fin 0, .fin 0, .fin 231], [.fin 6, .fin (-2), .fin 4576]] =
    .ok [.fin (-1), .fin (-2), .fin 231] := by decide +kernel

end Verif.Props
