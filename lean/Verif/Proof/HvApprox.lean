import Verif.Model.HvApprox
import Verif.Props.Hypervolume
import Mathlib.Data.List.GetD

/-!
# Lemmas about the approximate hypervolume algorithms
-/

set_option autoImplicit false

namespace Verif.Props

open Verif Verif.Spec Verif.Hv

/-- doubles with exact arithmetic over the reals -/
noncomputable abbrev apN : Num (Fl ℝ) := Num.ofFl (Fl.exact ℝ) 0

/-- a finite point -/
def apF (p : List ℝ) : List (Fl ℝ) := p.map Fl.fin

theorem apF_length (p : List ℝ) : (apF p).length = p.length := List.length_map _

theorem apN_at (p : List ℝ) (i : Nat) : apN.at (apF p) i = .fin (p.getD i 0) := by
  change (List.map Fl.fin p).getD i (.fin 0) = _
  by_cases hi : i < p.length
  · rw [List.getD_eq_getElem _ _ (by simpa using hi), List.getD_eq_getElem _ _ hi, List.getElem_map]
  · rw [List.getD_eq_default _ _ (by simpa using hi), List.getD_eq_default _ _ (by simpa using hi)]

theorem fl_lt_fin (a b : ℝ) : Fl.lt (Fl.fin a) (Fl.fin b) = decide (a < b) := rfl

theorem fl_le_fin (a b : ℝ) : Fl.le (Fl.fin a) (Fl.fin b) = decide (a ≤ b) := by
  rw [Bool.eq_iff_iff, Fl.le_iff (by simp) (by simp)]; simp

theorem apN_lt (p q : List ℝ) (i : Nat) : apN.lt (apN.at (apF p) i) (apN.at (apF q) i) = decide (p.getD i 0 < q.getD i 0) := by
  rw [apN_at, apN_at]; rfl

theorem apN_le (p q : List ℝ) (i : Nat) : apN.le (apN.at (apF p) i) (apN.at (apF q) i) = decide (p.getD i 0 ≤ q.getD i 0) := by
  rw [apN_at, apN_at]; exact fl_le_fin _ _

theorem apDomFrom (a b : List ℝ) (is : List Nat) : domCmpFrom apN (apF a) (apF b) is = domCmpFrom (RN 0) a b is := by
  induction is with
  | nil => rfl
  | cons i is ih =>
    unfold domCmpFrom
    simp only [apN_lt, ih]
    rfl

theorem domCmpFrom_iff (a b : List ℝ) (is : List Nat) :
    (domCmpFrom (RN 0) a b is = .bDomA ↔ (∀ i ∈ is, b.getD i 0 ≤ a.getD i 0) ∧ ∃ i ∈ is, b.getD i 0 < a.getD i 0) ∧
    (domCmpFrom (RN 0) a b is = .equal ↔ ∀ i ∈ is, a.getD i 0 = b.getD i 0) := by
  induction is with
  | nil => simp [domCmpFrom]
  | cons i is ih =>
    unfold domCmpFrom
    have hl : ∀ (x y : List ℝ) (j : Nat), (RN 0).lt ((RN 0).at x j) ((RN 0).at y j) = decide (x.getD j 0 < y.getD j 0) :=
      fun x y j => rfl
    simp only [hl, List.any_eq_true, decide_eq_true_eq, List.forall_mem_cons, List.exists_mem_cons_iff]
    by_cases h1 : b.getD i 0 < a.getD i 0
    · rw [if_pos h1]
      by_cases h2 : ∃ j ∈ is, a.getD j 0 < b.getD j 0
      · rw [if_pos h2]
        obtain ⟨j, hj, hlt⟩ := h2
        refine ⟨⟨fun h => by simp at h, fun h => absurd (h.1.2 j hj) (not_le.mpr hlt)⟩,
          ⟨fun h => by simp at h, fun h => absurd h.1 h1.ne'⟩⟩
      · rw [if_neg h2]
        push Not at h2
        exact ⟨⟨fun _ => ⟨⟨h1.le, h2⟩, Or.inl h1⟩, fun _ => rfl⟩, ⟨fun h => by simp at h, fun h => absurd h.1 h1.ne'⟩⟩
    · rw [if_neg h1]
      by_cases h3 : a.getD i 0 < b.getD i 0
      · rw [if_pos h3]
        refine ⟨⟨fun h => ?_, fun h => absurd h.1.1 (not_le.mpr h3)⟩, ⟨fun h => ?_, fun h => absurd h.1 h3.ne⟩⟩ <;>
        · revert h; split <;> simp
      · rw [if_neg h3]
        have he : a.getD i 0 = b.getD i 0 := le_antisymm (not_lt.mp h1) (not_lt.mp h3)
        rw [ih.1, ih.2]
        refine ⟨⟨fun h => ⟨⟨he.ge, h.1⟩, Or.inr h.2⟩, fun h => ⟨h.1.2, h.2.resolve_left h1⟩⟩,
          ⟨fun h => ⟨he, h⟩, fun h => h.2⟩⟩

theorem apDom_iff (a b : List ℝ) (n : Nat) :
    domCmp apN (apF a) (apF b) n = .bDomA ↔
      (∀ i : Nat, i < n → b.getD i 0 ≤ a.getD i 0) ∧ ∃ i : Nat, i < n ∧ b.getD i 0 < a.getD i 0 := by
  unfold domCmp
  rw [apDomFrom, (domCmpFrom_iff a b _).1]
  simp only [List.mem_range]

theorem apEq_iff (a b : List ℝ) (n : Nat) :
    domCmp apN (apF a) (apF b) n = .equal ↔ ∀ i : Nat, i < n → a.getD i 0 = b.getD i 0 := by
  unfold domCmp
  rw [apDomFrom, (domCmpFrom_iff a b _).2]
  simp only [List.mem_range]

theorem apVolume {p z : List ℝ} {d : Nat} (hp : p.length = d) (h : ∀ i : Nat, i < d → p.getD i 0 ≤ z.getD i 0) :
    volumeBetweenV apN (apF p) (apF z) = .fin (hvol d [p] z) := by
  rw [← rn_volumeV (low := 0) hp h]
  have key : ∀ (is : List Nat) (v : ℝ),
      is.foldl (fun v i => apN.mul v (apN.sub (apN.at (apF p) i) (apN.at (apF z) i))) (.fin v) =
      .fin (is.foldl (fun v i => (RN 0).mul v ((RN 0).sub ((RN 0).at p i) ((RN 0).at z i))) v) := by
    intro is
    induction is with
    | nil => intro v; rfl
    | cons i is ih =>
      intro v
      rw [List.foldl_cons, List.foldl_cons, ← ih, apN_at, apN_at]
      congr 1
  unfold volumeBetweenV
  dsimp only
  rw [apF_length]
  have k1 := key (List.range p.length) 1
  change List.foldl _ apN.one _ = _ at k1
  rw [k1]
  change _ = Fl.fin (if (RN 0).lt ((List.range p.length).foldl (fun v i => (RN 0).mul v ((RN 0).sub ((RN 0).at p i) ((RN 0).at z i))) 1) _ = true
    then (RN 0).neg ((List.range p.length).foldl (fun v i => (RN 0).mul v ((RN 0).sub ((RN 0).at p i) ((RN 0).at z i))) 1)
    else (List.range p.length).foldl (fun v i => (RN 0).mul v ((RN 0).sub ((RN 0).at p i) ((RN 0).at z i))) 1)
  generalize (List.range p.length).foldl (fun v i => (RN 0).mul v ((RN 0).sub ((RN 0).at p i) ((RN 0).at z i))) 1 = w
  change (if decide (w < 0) = true then Fl.fin (-w) else Fl.fin w) = Fl.fin (if decide (w < 0) = true then -w else w)
  split <;> rfl

/-! ## The bounding box -/

/-- `q` is not better than `p` in coordinate `k` and better in all others -/
def Reductor (d : Nat) (p q : List ℝ) (k : Nat) : Prop :=
  k < d ∧ p.getD k 0 ≤ q.getD k 0 ∧ ∀ i : Nat, i < d → i ≠ k → q.getD i 0 < p.getD i 0

theorem apReductor_some (p q : List ℝ) (is : List Nat) (j k : Nat) :
    apReductor apN (apF p) (apF q) (some j) is = some k ↔ k = j ∧ ∀ i ∈ is, q.getD i 0 < p.getD i 0 := by
  induction is with
  | nil => simp [apReductor, eq_comm]
  | cons i is ih =>
    unfold apReductor
    rw [apN_le]
    simp only [decide_eq_true_eq, List.forall_mem_cons]
    by_cases h : p.getD i 0 ≤ q.getD i 0
    · rw [if_pos h]
      exact ⟨fun h => by simp at h, fun h' => absurd h'.2.1 (not_lt.mpr h)⟩
    · rw [if_neg h, ih]
      exact ⟨fun h' => ⟨h'.1, not_le.mp h, h'.2⟩, fun h' => ⟨h'.1, h'.2.2⟩⟩

theorem apReductor_none (p q : List ℝ) (is : List Nat) (hn : is.Nodup) (k : Nat) :
    apReductor apN (apF p) (apF q) none is = some k ↔
      k ∈ is ∧ p.getD k 0 ≤ q.getD k 0 ∧ ∀ i ∈ is, i ≠ k → q.getD i 0 < p.getD i 0 := by
  induction is with
  | nil => simp [apReductor]
  | cons i is ih =>
    obtain ⟨hi, hn⟩ := List.nodup_cons.mp hn
    unfold apReductor
    rw [apN_le, List.forall_mem_cons, List.mem_cons]
    simp only [decide_eq_true_eq]
    by_cases h : p.getD i 0 ≤ q.getD i 0
    · rw [if_pos h, apReductor_some]
      constructor
      · rintro ⟨rfl, h2⟩
        exact ⟨Or.inl rfl, h, fun hc => absurd rfl hc, fun j hj _ => h2 j hj⟩
      · rintro ⟨h1, h2, h3, h4⟩
        have hk : k = i := by
          by_contra hc
          exact absurd (h3 (Ne.symm hc)) (not_lt.mpr h)
        subst hk
        exact ⟨rfl, fun j hj => h4 j hj (fun hc => hi (hc ▸ hj))⟩
    · rw [if_neg h, ih hn]
      constructor
      · rintro ⟨h1, h2, h3⟩
        exact ⟨Or.inr h1, h2, fun _ => not_le.mp h, h3⟩
      · rintro ⟨h1, h2, h3, h4⟩
        refine ⟨h1.resolve_left (fun hc => ?_), h2, h4⟩
        subst hc
        exact h h2

theorem apReductor_iff (d : Nat) (p q : List ℝ) (k : Nat) :
    apReductor apN (apF p) (apF q) none (List.range d) = some k ↔ Reductor d p q k := by
  rw [apReductor_none _ _ _ List.nodup_range]
  simp only [List.mem_range, Reductor]

/-- What the box is: `r` cut down in each coordinate to the smallest value of the points that reduce it. -/
structure BoxOf (d : Nat) (pts : List (List ℝ)) (r p z : List ℝ) : Prop where
  len : z.length = d
  low : ∀ i : Nat, i < d → p.getD i 0 ≤ z.getD i 0
  le_r : ∀ i : Nat, i < d → z.getD i 0 ≤ r.getD i 0
  le_q : ∀ q ∈ pts, ∀ i : Nat, Reductor d p q i → z.getD i 0 ≤ q.getD i 0
  attained : ∀ i : Nat, i < d → z.getD i 0 = r.getD i 0 ∨ ∃ q ∈ pts, Reductor d p q i ∧ z.getD i 0 = q.getD i 0

theorem apGetD_set_eq {z : List ℝ} {k i : Nat} {a : ℝ} (hk : k < z.length) :
    (z.set k a).getD i 0 = if i = k then a else z.getD i 0 := by
  rw [List.getD_eq_getElem?_getD, List.getElem?_set, List.getD_eq_getElem?_getD]
  by_cases h : k = i
  · subst h; rw [if_pos rfl, if_pos rfl, if_pos hk]; rfl
  · rw [if_neg h, if_neg (Ne.symm h)]

theorem apReduce_ok {d : Nat} {pts : List (List ℝ)} {r p z q : List ℝ} (h : BoxOf d pts r p z) :
    ∃ z', apReduce apN (apF p) d (apF z) (apF q) = apF z' ∧ BoxOf d (pts ++ [q]) r p z' := by
  unfold apReduce
  have hmem : ∀ q' ∈ pts ++ [q], q' ∈ pts ∨ q' = q := fun q' hq' => by simpa using hq'
  cases hr : apReductor apN (apF p) (apF q) none (List.range d) with
  | none =>
    have hno : ∀ k, ¬ Reductor d p q k := fun k hk => by
      rw [← apReductor_iff, hr] at hk; cases hk
    refine ⟨z, rfl, h.len, h.low, h.le_r, fun q' hq' i hi => ?_, fun i hi => ?_⟩
    · rcases hmem q' hq' with h1 | rfl
      · exact h.le_q q' h1 i hi
      · exact absurd hi (hno i)
    · exact (h.attained i hi).imp id (fun ⟨q', h1, h2⟩ => ⟨q', by simp [h1], h2⟩)
  | some k =>
    obtain hred := (apReductor_iff d p q k).mp hr
    dsimp only
    have hk : k < z.length := by rw [h.len]; exact hred.1
    refine ⟨z.set k (min (z.getD k 0) (q.getD k 0)), ?_, ?_, fun i hi => ?_, fun i hi => ?_, fun q' hq' i hi => ?_, fun i hi => ?_⟩
    · rw [apN_at, apN_at]
      unfold apF Fl.stdMin
      rw [fl_lt_fin, List.map_set]
      congr 1
      simp only [decide_eq_true_eq]
      rcases lt_or_ge (q.getD k 0) (z.getD k 0) with hlt | hge
      · rw [if_pos hlt, min_eq_right hlt.le]
      · rw [if_neg (not_lt.mpr hge), min_eq_left hge]
    · rw [List.length_set]; exact h.len
    · rw [apGetD_set_eq hk]
      split
      · next he => subst he; exact le_min (h.low _ hi) hred.2.1
      · exact h.low i hi
    · rw [apGetD_set_eq hk]
      split
      · next he => subst he; exact le_trans (min_le_left _ _) (h.le_r _ hi)
      · exact h.le_r i hi
    · rw [apGetD_set_eq hk]
      rcases hmem q' hq' with h1 | rfl
      · split
        · next he => subst he; exact le_trans (min_le_left _ _) (h.le_q q' h1 _ hi)
        · exact h.le_q q' h1 i hi
      · have he : i = k := by
          by_contra hc
          exact absurd (hred.2.2 i hi.1 hc) (not_lt.mpr hi.2.1)
        rw [if_pos he, he]
        exact min_le_right _ _
    · rw [apGetD_set_eq hk]
      split
      · next he =>
        subst he
        rcases le_total (z.getD i 0) (q.getD i 0) with hle | hle
        · rw [min_eq_left hle]
          exact (h.attained i hi).imp id (fun ⟨q', h1, h2⟩ => ⟨q', by simp [h1], h2⟩)
        · rw [min_eq_right hle]
          exact Or.inr ⟨q, by simp, hred, rfl⟩
      · exact (h.attained i hi).imp id (fun ⟨q', h1, h2⟩ => ⟨q', by simp [h1], h2⟩)

theorem apBox_ok {d : Nat} {pts : List (List ℝ)} {r p : List ℝ} (hr : r.length = d)
    (hp : ∀ i : Nat, i < d → p.getD i 0 ≤ r.getD i 0) :
    ∃ z, apBox apN (pts.map apF) (apF r) (apF p) = apF z ∧ BoxOf d pts r p z := by
  unfold apBox
  rw [apF_length, hr]
  have gen : ∀ (l pre : List (List ℝ)) (z : List ℝ), BoxOf d pre r p z →
      ∃ z', (l.map apF).foldl (apReduce apN (apF p) d) (apF z) = apF z' ∧ BoxOf d (pre ++ l) r p z' := by
    intro l
    induction l with
    | nil => intro pre z h; exact ⟨z, rfl, by simpa using h⟩
    | cons q l ih =>
      intro pre z h
      obtain ⟨z1, e1, h1⟩ := apReduce_ok (q := q) h
      obtain ⟨z2, e2, h2⟩ := ih (pre ++ [q]) z1 h1
      refine ⟨z2, ?_, by simpa using h2⟩
      rw [List.map_cons, List.foldl_cons, e1, e2]
  obtain ⟨z, e, h⟩ := gen pts [] r ⟨hr, hp, fun _ _ => le_rfl, fun q hq => by simp at hq, fun i hi => Or.inl rfl⟩
  exact ⟨z, e, by simpa using h⟩

/-! ## What the box is good for -/

/-- `q` is in no coordinate worse than `x` -/
def WeakDom (d : Nat) (q x : List ℝ) : Prop := ∀ i : Nat, i < d → q.getD i 0 ≤ x.getD i 0

/-- nothing the point covers alone lies outside its box -/
theorem box_covers {d : Nat} {pts : List (List ℝ)} {r p z x : List ℝ} (h : BoxOf d pts r p z)
    (hx : ∀ i : Nat, i < d → p.getD i 0 ≤ x.getD i 0 ∧ x.getD i 0 ≤ r.getD i 0)
    (hno : ∀ q ∈ pts, (∃ k, Reductor d p q k) → ¬ WeakDom d q x) : ∀ i : Nat, i < d → x.getD i 0 ≤ z.getD i 0 := by
  intro i hi
  rcases h.attained i hi with he | ⟨q, hq, hred, he⟩
  · rw [he]; exact (hx i hi).2
  · rw [he]
    by_contra hc
    refine hno q hq ⟨i, hred⟩ (fun j hj => ?_)
    by_cases hji : j = i
    · subst hji; exact (not_le.mp hc).le
    · exact le_trans (hred.2.2 j hj hji).le (hx j hj).1

/-- the points whose boxes overlap the box with corner `z` -/
def Overlaps (d : Nat) (z q : List ℝ) : Prop := WeakDom d q z ∧ ∃ i : Nat, i < d ∧ q.getD i 0 < z.getD i 0

open MeasureTheory in
/-- The exact step computes the contribution: the box less what the overlapping points cover of it. -/
theorem box_exact {d : Nat} (hd : 2 ≤ d) {pts : List (List ℝ)} {r : List ℝ} {idx : Nat} (hi : idx < pts.length)
    {z : List ℝ} (hz : BoxOf d pts r pts[idx] z)
    {bp : List (List ℝ)}
    (hbp : ∀ q, q ∈ bp ↔ q ∈ pts.eraseIdx idx ∧ Overlaps d z q) {l : List ℝ → List ℝ}
    (hl : ∀ q ∈ bp, ∀ i : Nat, i < d → (l q).getD i 0 = max (pts[idx].getD i 0) (q.getD i 0)) :
    hvol d [pts[idx]] z - hvol d (bp.map l) z = exclVol d pts r idx := by
  classical
  set p := pts[idx] with hp
  have hsub : cov d (bp.map l) z ⊆ Set.Icc (pt d p) (pt d z) := by
    intro x hx
    rw [mem_cov] at hx
    obtain ⟨h1, q', hq', h2⟩ := hx
    obtain ⟨q, hq, rfl⟩ := List.mem_map.mp hq'
    refine ⟨fun i => ?_, h1⟩
    have := h2 i
    simp only [pt] at this ⊢
    rw [hl q hq i i.2] at this
    exact le_trans (le_max_left _ _) this
  have e1 : hvol d [p] z - hvol d (bp.map l) z = (volume (Set.Icc (pt d p) (pt d z) \ cov d (bp.map l) z)).toReal := by
    unfold hvol
    rw [cov_cons, cov_nil, Set.union_empty]
    have := measureReal_sdiff (μ := volume) hsub cov_meas (isCompact_Icc.measure_lt_top.ne)
    exact this.symm
  rw [e1, exclVol_eq hi]
  have key : (Set.Icc (pt d p) (pt d r) \ ⋃ q ∈ pts.eraseIdx idx, Set.Icc (pt d q) (pt d r)) =
      (Set.Icc (pt d p) (pt d z) \ cov d (bp.map l) z) \ (if pt d z ∈ ⋃ q ∈ pts.eraseIdx idx, Set.Icc (pt d q) (pt d r) then {pt d z} else ∅) := by
    ext x
    have hmu : ∀ y : Fin d → ℝ, (y ∈ ⋃ q ∈ pts.eraseIdx idx, Set.Icc (pt d q) (pt d r)) ↔
        ∃ q ∈ pts.eraseIdx idx, pt d q ≤ y ∧ y ≤ pt d r := fun y => by
      simp only [Set.mem_iUnion, Set.mem_Icc, exists_prop]
    have hself : ∀ k, ¬ Reductor d p p k := by
      intro k hk
      by_cases h0 : k = 0
      · exact absurd (hk.2.2 1 (by omega) (by omega)) (lt_irrefl _)
      · exact absurd (hk.2.2 0 (by omega) (fun h => h0 h.symm)) (lt_irrefl _)
    have hmem : ∀ q ∈ pts, q = p ∨ q ∈ pts.eraseIdx idx := by
      intro q hq
      have := (List.getElem_cons_eraseIdx_perm hi).mem_iff (a := q)
      exact List.mem_cons.mp (this.mpr hq)
    constructor
    · rintro ⟨⟨hx1, hx2⟩, hx3⟩
      rw [hmu] at hx3
      push Not at hx3
      have hxz : x ≤ pt d z := by
        have := box_covers hz (x := List.ofFn x) (fun i hi => by
          rw [List.getD_eq_getElem (List.ofFn x) _ (by simpa using hi), List.getElem_ofFn]
          exact ⟨hx1 ⟨i, hi⟩, hx2 ⟨i, hi⟩⟩) (fun q hq ⟨k, hk⟩ hw => by
            have hq' : q ∈ pts.eraseIdx idx := (hmem q hq).resolve_left (fun hc => hself k (hc ▸ hk))
            refine hx3 q hq' (fun i => ?_) hx2
            have := hw i i.2
            rw [List.getD_eq_getElem (List.ofFn x) _ (by simp), List.getElem_ofFn] at this
            exact this)
        intro i
        have := this i i.2
        rw [List.getD_eq_getElem (List.ofFn x) _ (by simp), List.getElem_ofFn] at this
        exact this
      refine ⟨⟨⟨hx1, hxz⟩, fun hc => ?_⟩, fun hc => ?_⟩
      · rw [mem_cov] at hc
        obtain ⟨-, q', hq', h2⟩ := hc
        obtain ⟨q, hq, rfl⟩ := List.mem_map.mp hq'
        refine hx3 q ((hbp q).mp hq).1 (fun i => ?_) hx2
        have := h2 i
        simp only [pt] at this ⊢
        rw [hl q hq i i.2] at this
        exact le_trans (le_max_right _ _) this
      · split at hc
        · next hzm =>
          rw [hmu] at hzm
          obtain ⟨q, hq, h1, -⟩ := hzm
          have : x = pt d z := hc
          exact hx3 q hq (this ▸ h1) hx2
        · exact hc
    · rintro ⟨⟨⟨hx1, hxz⟩, hx3⟩, hx4⟩
      have hzr : pt d z ≤ pt d r := fun i => hz.le_r i i.2
      refine ⟨⟨hx1, le_trans hxz hzr⟩, fun hc => ?_⟩
      rw [hmu] at hc
      obtain ⟨q, hq, h1, h2⟩ := hc
      have hqz : pt d q ≤ pt d z := le_trans h1 hxz
      by_cases hov : Overlaps d z q
      · apply hx3
        rw [mem_cov]
        have hqb := (hbp q).mpr ⟨hq, hov⟩
        refine ⟨hxz, l q, List.mem_map.mpr ⟨q, hqb, rfl⟩, fun i => ?_⟩
        simp only [pt]
        rw [hl q hqb i i.2]
        exact max_le (hx1 i) (h1 i)
      · have heq : pt d q = pt d z := by
          funext i
          refine le_antisymm (hqz i) (not_lt.mp (fun hlt => hov ⟨fun j hj => hqz ⟨j, hj⟩, i, i.2, hlt⟩))
        apply hx4
        rw [if_pos ((hmu _).mpr ⟨q, hq, hqz, hzr⟩)]
        exact le_antisymm hxz (heq ▸ h1)
  rw [key]
  have : Nonempty (Fin d) := ⟨⟨0, by omega⟩⟩
  have hnull : volume (if pt d z ∈ ⋃ q ∈ pts.eraseIdx idx, Set.Icc (pt d q) (pt d r) then ({pt d z} : Set (Fin d → ℝ))
      else ∅) = 0 := by
    split
    · exact measure_singleton _
    · exact measure_empty
  rw [measure_sdiff_null hnull]

theorem exclVol_zero {d : Nat} {pts : List (List ℝ)} {r : List ℝ} {i j : Nat} (hi : i < pts.length) (hj : j < pts.length)
    (hij : j ≠ i) (h : WeakDom d (pts.getD j []) (pts.getD i [])) : exclVol d pts r i = 0 := by
  unfold exclVol
  rw [sub_eq_zero]
  refine hvol_congr (Set.Subset.antisymm ?_ (cov_sub fun x hx => ⟨x, List.mem_of_mem_eraseIdx hx, fun _ _ => le_rfl⟩))
  refine cov_sub fun x hx => ?_
  obtain ⟨k, hk, rfl⟩ := List.mem_iff_getElem.mp hx
  rw [List.getD_eq_getElem _ _ hi, List.getD_eq_getElem _ _ hj] at h
  by_cases hki : k = i
  · subst hki
    exact ⟨pts[j], List.mem_eraseIdx_iff_getElem.mpr ⟨j, hj, hij, rfl⟩, h⟩
  · exact ⟨pts[k], List.mem_eraseIdx_iff_getElem.mpr ⟨k, hk, hki, rfl⟩, fun _ _ => le_rfl⟩

/-! ## The initial computation -/

section prep
variable {d : Nat} {P : List (List ℝ)} {r : List ℝ}

theorem getD_apF (j : Nat) : (P.map apF).getD j [] = apF (P.getD j []) := by
  change _ = apF _
  rw [show ([] : List (Fl ℝ)) = apF [] from rfl, List.getD_map]

theorem apInBox_dom {q p z : List ℝ} (hp : p.length = d) :
    (apInBox apN (apF q) (apF p) (apF z) = 2 ∨ apInBox apN (apF q) (apF p) (apF z) = 3) ↔ WeakDom d q p := by
  unfold apInBox
  rw [apF_length, hp]
  by_cases h1 : domCmp apN (apF p) (apF q) d = .equal
  · rw [if_pos h1]
    rw [apEq_iff] at h1
    simp only [or_true, true_iff]
    exact fun i hi => (h1 i hi).ge
  · rw [if_neg h1]
    by_cases h2 : domCmp apN (apF p) (apF q) d = .bDomA
    · rw [if_pos h2]
      rw [apDom_iff] at h2
      simp only [true_or, true_iff]
      exact h2.1
    · rw [if_neg h2]
      have : ¬ WeakDom d q p := by
        intro hw
        rw [apEq_iff] at h1
        rw [apDom_iff] at h2
        push Not at h1 h2
        obtain ⟨i, hi, hne⟩ := h1
        exact hne (le_antisymm (h2 hw i hi) (hw i hi))
      simp only [this, iff_false]
      split <;> simp

theorem apInBox_one {q p z : List ℝ} (hp : p.length = d) (hz : z.length = d) :
    apInBox apN (apF q) (apF p) (apF z) = 1 ↔ ¬ WeakDom d q p ∧ Overlaps d z q := by
  rw [← apInBox_dom (z := z) hp]
  have hov : domCmp apN (apF z) (apF q) d = .bDomA ↔ Overlaps d z q := by
    rw [apDom_iff]; rfl
  unfold apInBox
  rw [apF_length, apF_length, hp, hz]
  by_cases h1 : domCmp apN (apF p) (apF q) d = .equal
  · rw [if_pos h1]; simp
  · rw [if_neg h1]
    by_cases h2 : domCmp apN (apF p) (apF q) d = .bDomA
    · rw [if_pos h2]; simp
    · rw [if_neg h2, ← hov]
      split <;> simp_all

/-- What the loop over the other points finds: it ends early only for the least contributor and only if another point
is nowhere worse than this one. -/
theorem apOverlap_ok {kind : ApKind} {idx : Nat} {p z : List ℝ} (hp : p.length = d) (hz : z.length = d)
    (l acc : List Nat) :
    match apOverlap apN kind (P.map apF) idx (apF p) (apF z) acc l with
    | .error i => i = idx ∧ kind = .least ∧ ∃ j ∈ l, j ≠ idx ∧ WeakDom d (P.getD j []) p
    | .ok bp => (∃ m, bp = acc ++ m ∧ m.Sublist l ∧
        ∀ j, j ∈ m ↔ j ∈ l ∧ j ≠ idx ∧ ¬ WeakDom d (P.getD j []) p ∧ Overlaps d z (P.getD j [])) ∧
        (kind = .least → ∀ j ∈ l, j ≠ idx → ¬ WeakDom d (P.getD j []) p) := by
  induction l generalizing acc with
  | nil => simp [apOverlap]
  | cons j l ih =>
    unfold apOverlap
    by_cases hj : j = idx
    · rw [if_pos hj]
      have := ih acc
      split at this
      · obtain ⟨h1, h2, k, hk, h3⟩ := this
        exact ⟨h1, h2, k, List.mem_cons_of_mem _ hk, h3⟩
      · obtain ⟨⟨m, h1, h2, h3⟩, h4⟩ := this
        refine ⟨⟨m, h1, h2.cons _, fun k => ?_⟩, fun hk k hm hne => ?_⟩
        · rw [h3, List.mem_cons]
          constructor
          · rintro ⟨a, b⟩; exact ⟨Or.inr a, b⟩
          · rintro ⟨a, b, c⟩; exact ⟨a.resolve_left (fun h => b (h.trans hj)), b, c⟩
        · exact h4 hk k ((List.mem_cons.mp hm).resolve_left (fun h => hne (h.trans hj))) hne
    · rw [if_neg hj]
      dsimp only
      rw [getD_apF]
      by_cases h1 : apInBox apN (apF (P.getD j [])) (apF p) (apF z) = 1
      · rw [if_pos h1]
        have hov := (apInBox_one hp hz).mp h1
        have := ih (acc ++ [j])
        split at this
        · obtain ⟨h1, h2, k, hk, h3⟩ := this
          exact ⟨h1, h2, k, List.mem_cons_of_mem _ hk, h3⟩
        · obtain ⟨⟨m, e, h2, h3⟩, h4⟩ := this
          refine ⟨⟨j :: m, by rw [e]; simp, h2.cons_cons _, fun k => ?_⟩, fun hk k hm hne => ?_⟩
          · rw [List.mem_cons, List.mem_cons, h3]
            constructor
            · rintro (rfl | ⟨a, b⟩)
              · exact ⟨Or.inl rfl, hj, hov⟩
              · exact ⟨Or.inr a, b⟩
            · rintro ⟨rfl | a, b⟩
              · exact Or.inl rfl
              · exact Or.inr ⟨a, b⟩
          · rcases List.mem_cons.mp hm with rfl | hm
            · exact hov.1
            · exact h4 hk k hm hne
      · rw [if_neg h1]
        have hnov : ¬ (¬ WeakDom d (P.getD j []) p ∧ Overlaps d z (P.getD j [])) := fun hc => h1 ((apInBox_one hp hz).mpr hc)
        by_cases h2 : kind = .least ∧ (apInBox apN (apF (P.getD j [])) (apF p) (apF z) = 2 ∨ apInBox apN (apF (P.getD j [])) (apF p) (apF z) = 3)
        · rw [if_pos h2]
          exact ⟨rfl, h2.1, j, List.mem_cons_self, hj, (apInBox_dom hp).mp h2.2⟩
        · rw [if_neg h2]
          have := ih acc
          split at this
          · obtain ⟨h1, h2, k, hk, h3⟩ := this
            exact ⟨h1, h2, k, List.mem_cons_of_mem _ hk, h3⟩
          · obtain ⟨⟨m, e, h5, h3⟩, h4⟩ := this
            refine ⟨⟨m, e, h5.cons _, fun k => ?_⟩, fun hk k hm hne => ?_⟩
            · rw [h3, List.mem_cons]
              constructor
              · rintro ⟨a, b⟩; exact ⟨Or.inr a, b⟩
              · rintro ⟨a, b, c⟩
                refine ⟨a.resolve_left (fun h => hnov (h ▸ c)), b, c⟩
            · rcases List.mem_cons.mp hm with rfl | hm
              · exact fun hc => h2 ⟨hk, (apInBox_dom hp).mpr hc⟩
              · exact h4 hk k hm hne

/-- the other points overlapping the box of point `i` -/
def OverOf (d : Nat) (P : List (List ℝ)) (i : Nat) (z : List ℝ) (bp : List Nat) : Prop :=
  bp.Nodup ∧ ∀ j, j ∈ bp ↔ j < P.length ∧ j ≠ i ∧ ¬ WeakDom d (P.getD j []) (P.getD i []) ∧ Overlaps d z (P.getD j [])

/-- no point is nowhere worse than another one; in particular no point occurs twice -/
def Antichain (d : Nat) (P : List (List ℝ)) : Prop :=
  ∀ i j : Nat, i < P.length → j < P.length → j ≠ i → ¬ WeakDom d (P.getD j []) (P.getD i [])

theorem apPrepare_ok {σ : Type} {v : ApEnv ℝ σ} (hop : v.op = Fl.exact ℝ) {kind : ApKind} (hb : Below d P r) :
    match apPrepare v kind (P.map apF) (apF r) with
    | .error i => kind = .least ∧ i < P.length ∧ ∃ j, j < P.length ∧ j ≠ i ∧ WeakDom d (P.getD j []) (P.getD i [])
    | .ok w => (kind = .least → Antichain d P) ∧ ∃ (Z : Nat → List ℝ) (B : Nat → List Nat),
        (∀ i : Nat, i < P.length → BoxOf d P r (P.getD i []) (Z i) ∧ OverOf d P i (Z i) (B i)) ∧
        w.boxes = (List.range P.length).map (fun i => apF (Z i)) ∧
        w.vols = (List.range P.length).map (fun i => Fl.fin (hvol d [P.getD i []] (Z i))) ∧
        w.over = (List.range P.length).map B ∧
        ∃ R : ℝ, w.rdelta = .fin R ∧ (∀ i : Nat, i < P.length → hvol d [P.getD i []] (Z i) ≤ R) ∧
          (R = 0 ∨ ∃ i : Nat, i < P.length ∧ R = hvol d [P.getD i []] (Z i)) := by
  have hlen : ∀ i : Nat, i < P.length → (P.getD i []).length = d ∧ ∀ k : Nat, k < d → (P.getD i []).getD k 0 ≤ r.getD k 0 := by
    intro i hi
    rw [List.getD_eq_getElem _ _ hi]
    exact hb.2 _ (List.getElem_mem hi)
  have hbox : ∀ i : Nat, i < P.length → ∃ z, apBox apN (P.map apF) (apF r) (apF (P.getD i [])) = apF z ∧ BoxOf d P r (P.getD i []) z :=
    fun i hi => apBox_ok hb.1 (hlen i hi).2
  choose! Z hZ using hbox
  have hstep : ∀ (s : ApPrep ℝ) (i : Nat), i < P.length →
      match apPrepStep v kind (P.map apF) (apF r) s i with
      | .error k => k = i ∧ kind = .least ∧ ∃ j, j < P.length ∧ j ≠ i ∧ WeakDom d (P.getD j []) (P.getD i [])
      | .ok s' => (kind = .least → ∀ j : Nat, j < P.length → j ≠ i → ¬ WeakDom d (P.getD j []) (P.getD i [])) ∧
          s'.boxes = s.boxes ++ [apF (Z i)] ∧ s'.vols = s.vols ++ [Fl.fin (hvol d [P.getD i []] (Z i))] ∧
          s'.rdelta = Fl.stdMax s.rdelta (Fl.fin (hvol d [P.getD i []] (Z i))) ∧
          ∃ bp, OverOf d P i (Z i) bp ∧ s'.over = s.over ++ [bp] := by
    intro s i hi
    unfold apPrepStep
    rw [hop]
    dsimp only
    rw [getD_apF, (hZ i hi).1, List.length_map, apVolume (hlen i hi).1 (hZ i hi).2.low]
    have := apOverlap_ok (P := P) (kind := kind) (idx := i) (hlen i hi).1 (hZ i hi).2.len (List.range P.length) []
    cases ho : apOverlap apN kind (P.map apF) i (apF (P.getD i [])) (apF (Z i)) [] (List.range P.length) with
    | error k =>
      rw [ho] at this
      obtain ⟨h1, h2, j, hj, h3⟩ := this
      exact ⟨h1, h2, j, List.mem_range.mp hj, h3⟩
    | ok bp =>
      rw [ho] at this
      obtain ⟨⟨m, e, h2, h3⟩, h4⟩ := this
      rw [List.nil_append] at e
      subst e
      refine ⟨fun hk j hj => h4 hk j (List.mem_range.mpr hj), rfl, rfl, rfl, bp, ⟨h2.nodup List.nodup_range, fun j => ?_⟩, rfl⟩
      rw [h3, List.mem_range]
  have gen : ∀ (k : Nat), k ≤ P.length →
      match (List.range k).foldlM (apPrepStep v kind (P.map apF) (apF r)) ⟨[], [], [], v.op.zero⟩ with
      | .error i => kind = .least ∧ i < P.length ∧ ∃ j, j < P.length ∧ j ≠ i ∧ WeakDom d (P.getD j []) (P.getD i [])
      | .ok w => (kind = .least → ∀ i : Nat, i < k → ∀ j : Nat, j < P.length → j ≠ i → ¬ WeakDom d (P.getD j []) (P.getD i [])) ∧
          w.boxes = (List.range k).map (fun i => apF (Z i)) ∧
          w.vols = (List.range k).map (fun i => Fl.fin (hvol d [P.getD i []] (Z i))) ∧
          (∃ R : ℝ, w.rdelta = .fin R ∧ (∀ i : Nat, i < k → hvol d [P.getD i []] (Z i) ≤ R) ∧
            (R = 0 ∨ ∃ i : Nat, i < k ∧ R = hvol d [P.getD i []] (Z i))) ∧
          ∃ B : Nat → List Nat, (∀ i : Nat, i < k → OverOf d P i (Z i) (B i)) ∧ w.over = (List.range k).map B := by
    intro k
    induction k with
    | zero => intro _; exact ⟨fun _ i hi => absurd hi (Nat.not_lt_zero i), rfl, rfl,
        ⟨0, by rw [hop]; rfl, fun i hi => absurd hi (Nat.not_lt_zero i), Or.inl rfl⟩, fun _ => [], fun i hi => absurd hi (Nat.not_lt_zero i), rfl⟩
    | succ k ih =>
      intro hk
      rw [List.range_succ, List.foldlM_append]
      have h1 := ih (by omega)
      cases hf : (List.range k).foldlM (apPrepStep v kind (P.map apF) (apF r)) ⟨[], [], [], v.op.zero⟩ with
      | error i => rw [hf] at h1; exact h1
      | ok w =>
        rw [hf] at h1
        obtain ⟨a1, a2, a3, ⟨R, r1, r2, r3⟩, B, a4, a5⟩ := h1
        have h2 := hstep w k (by omega)
        change match (List.foldlM (apPrepStep v kind (P.map apF) (apF r)) w [k]) with
          | .error i => _
          | .ok w => _
        rw [List.foldlM_cons]
        cases hs : apPrepStep v kind (P.map apF) (apF r) w k with
        | error i =>
          rw [hs] at h2
          obtain ⟨rfl, b2, b3⟩ := h2
          exact ⟨b2, by omega, b3⟩
        | ok w' =>
          rw [hs] at h2
          obtain ⟨b1, b2, b3, b6, bp, b4, b5⟩ := h2
          change _ ∧ _
          refine ⟨fun hl i hi => ?_, ?_, ?_, ?_, fun i => if i = k then bp else B i, fun i hi => ?_, ?_⟩
          · rcases Nat.lt_succ_iff_lt_or_eq.mp hi with hi | rfl
            · exact a1 hl i hi
            · exact b1 hl
          · rw [b2, a2, List.map_append]; rfl
          · rw [b3, a3, List.map_append]; rfl
          · rw [b6, r1]
            unfold Fl.stdMax
            rw [fl_lt_fin]
            by_cases hlt : R < hvol d [P.getD k []] (Z k)
            · refine ⟨hvol d [P.getD k []] (Z k), if_pos (decide_eq_true hlt), fun i hi => ?_, Or.inr ⟨k, by omega, rfl⟩⟩
              rcases Nat.lt_succ_iff_lt_or_eq.mp hi with hi | rfl
              · exact (r2 i hi).trans hlt.le
              · exact le_rfl
            · refine ⟨R, if_neg (by rw [decide_eq_true_eq]; exact hlt), fun i hi => ?_, r3.imp id (fun ⟨i, h, h'⟩ => ⟨i, by omega, h'⟩)⟩
              rcases Nat.lt_succ_iff_lt_or_eq.mp hi with hi | rfl
              · exact r2 i hi
              · exact not_lt.mp hlt
          · rcases Nat.lt_succ_iff_lt_or_eq.mp hi with hi | rfl
            · dsimp only; rw [if_neg (by omega)]; exact a4 i hi
            · dsimp only; rw [if_pos rfl]; exact b4
          · rw [b5, a5, List.map_append]
            congr 1
            · refine List.map_congr_left (fun i hi => ?_)
              rw [if_neg]
              have := List.mem_range.mp hi
              omega
            · simp
  have := gen P.length le_rfl
  unfold apPrepare
  rw [List.length_map]
  cases hf : (List.range P.length).foldlM (apPrepStep v kind (P.map apF) (apF r)) ⟨[], [], [], v.op.zero⟩ with
  | error i => rw [hf] at this; exact this
  | ok w =>
    rw [hf] at this
    obtain ⟨a1, a2, a3, hR, B, a4, a5⟩ := this
    exact ⟨fun hk i j hi hj hij => a1 hk i hi j hj hij, Z, B, fun i hi => ⟨(hZ i hi).2, a4 i hi⟩, a2, a3, a5, hR⟩

end prep

end Verif.Props
