import Verif.Spec.Hypervolume
import Mathlib.MeasureTheory.Measure.Real

/-!
# Lemmas on the measure of unions of boxes
-/

set_option autoImplicit false

namespace Verif.Spec

open MeasureTheory

variable {d : Nat} {pts P L : List (List ℝ)} {r p : List ℝ}

theorem mem_cov {x : Fin d → ℝ} : x ∈ cov d pts r ↔ (∀ i, x i ≤ pt d r i) ∧ ∃ p ∈ pts, ∀ i, pt d p i ≤ x i := by
  unfold cov
  simp only [Set.mem_iUnion, Set.mem_Icc, Pi.le_def, exists_prop]
  constructor
  · rintro ⟨p, hp, h1, h2⟩; exact ⟨h2, p, hp, h1⟩
  · rintro ⟨h2, p, hp, h1⟩; exact ⟨p, hp, h1, h2⟩

theorem cov_nil : cov d [] r = ∅ := by simp [cov]

theorem cov_cons : cov d (p :: pts) r = Set.Icc (pt d p) (pt d r) ∪ cov d pts r := by
  simp [cov]

theorem cov_append : cov d (P ++ L) r = cov d P r ∪ cov d L r := by
  unfold cov
  ext x
  simp only [Set.mem_iUnion, List.mem_append, Set.mem_union, exists_prop]
  constructor
  · rintro ⟨p, hp | hp, h⟩
    · exact Or.inl ⟨p, hp, h⟩
    · exact Or.inr ⟨p, hp, h⟩
  · rintro (⟨p, hp, h⟩ | ⟨p, hp, h⟩)
    · exact ⟨p, Or.inl hp, h⟩
    · exact ⟨p, Or.inr hp, h⟩

theorem cov_meas : MeasurableSet (cov d pts r) := by
  induction pts with
  | nil => rw [cov_nil]; exact MeasurableSet.empty
  | cons p l ih => rw [cov_cons]; exact measurableSet_Icc.union ih

theorem cov_finite : volume (cov d pts r) ≠ ⊤ := by
  induction pts with
  | nil => simp [cov_nil]
  | cons p l ih =>
    rw [cov_cons]
    refine (measure_union_lt_top ?_ (lt_top_iff_ne_top.mpr ih)).ne
    exact isCompact_Icc.measure_lt_top

theorem hvol_nil : hvol d [] r = 0 := by simp [hvol, cov_nil]

theorem hvol_nonneg : 0 ≤ hvol d pts r := ENNReal.toReal_nonneg

theorem hvol_congr (h : cov d P r = cov d L r) : hvol d P r = hvol d L r := by unfold hvol; rw [h]

/-- covers are equal if each point of one list is weakly dominated by a point of the other -/
theorem cov_sub (h : ∀ p ∈ P, ∃ q ∈ L, ∀ i : Nat, i < d → q.getD i 0 ≤ p.getD i 0) : cov d P r ⊆ cov d L r := by
  intro x hx
  rw [mem_cov] at hx ⊢
  obtain ⟨h1, p, hp, h2⟩ := hx
  obtain ⟨q, hq, h3⟩ := h p hp
  exact ⟨h1, q, hq, fun i => le_trans (h3 i i.2) (h2 i)⟩

theorem hvol_mono (h : cov d P r ⊆ cov d L r) : hvol d P r ≤ hvol d L r :=
  ENNReal.toReal_mono cov_finite (measure_mono h)

theorem cov_perm (h : P.Perm L) : cov d P r = cov d L r := by
  ext x
  rw [mem_cov, mem_cov]
  constructor
  · rintro ⟨h1, p, hp, h2⟩; exact ⟨h1, p, h.mem_iff.mp hp, h2⟩
  · rintro ⟨h1, p, hp, h2⟩; exact ⟨h1, p, h.mem_iff.mpr hp, h2⟩

theorem hvol_append : hvol d (P ++ L) r + (volume (cov d P r ∩ cov d L r)).toReal = hvol d P r + hvol d L r := by
  unfold hvol
  rw [cov_append]
  exact measureReal_union_add_inter cov_meas cov_finite cov_finite

theorem hvol_single (h : ∀ i : Nat, i < d → p.getD i 0 ≤ r.getD i 0) :
    hvol d [p] r = ∏ i : Fin d, (r.getD i 0 - p.getD i 0) := by
  unfold hvol
  rw [cov_cons, cov_nil, Set.union_empty]
  rw [Real.volume_Icc_pi_toReal (a := pt d p) (b := pt d r) (fun i => h i i.2)]
  rfl

theorem hvol_single_range (h : ∀ i : Nat, i < d → p.getD i 0 ≤ r.getD i 0) :
    hvol d [p] r = ∏ i ∈ Finset.range d, (r.getD i 0 - p.getD i 0) := by
  rw [hvol_single h, Finset.prod_range]

/-- all points at the same last coordinate -/
theorem hvol_succ {z : ℝ} (hz : ∀ p ∈ pts, p.getD d 0 = z) (hr : z ≤ r.getD d 0) :
    hvol (d + 1) pts r = (r.getD d 0 - z) * hvol d pts r := by
  have hset : cov (d + 1) pts r =
      (MeasurableEquiv.piFinSuccAbove (fun _ => ℝ) (Fin.last d)) ⁻¹' (Set.Icc z (r.getD d 0) ×ˢ cov d pts r) := by
    ext x
    rw [mem_cov]
    simp only [Set.mem_preimage, Set.mem_prod, Set.mem_Icc]
    have e1 : (MeasurableEquiv.piFinSuccAbove (fun _ => ℝ) (Fin.last d) x).1 = x (Fin.last d) := rfl
    have e2 : (MeasurableEquiv.piFinSuccAbove (fun _ => ℝ) (Fin.last d) x).2 = fun i => x i.castSucc := by
      funext i
      simp [MeasurableEquiv.piFinSuccAbove, Fin.insertNthEquiv, Fin.init]
    rw [e1, e2, mem_cov]
    constructor
    · rintro ⟨h1, p, hp, h2⟩
      refine ⟨⟨?_, h1 (Fin.last d)⟩, fun i => h1 i.castSucc, p, hp, fun i => h2 i.castSucc⟩
      have := h2 (Fin.last d)
      simp only [pt, Fin.val_last, hz p hp] at this
      exact this
    · rintro ⟨⟨h3, h4⟩, h1, p, hp, h2⟩
      refine ⟨?_, p, hp, ?_⟩
      · intro i
        refine Fin.lastCases ?_ (fun i => ?_) i
        · exact h4
        · exact h1 i
      · intro i
        refine Fin.lastCases ?_ (fun i => ?_) i
        · simp only [pt, Fin.val_last, hz p hp]; exact h3
        · exact h2 i
  unfold hvol
  rw [hset, (volume_preserving_piFinSuccAbove (fun _ => ℝ) (Fin.last d)).measure_preimage
    (measurableSet_Icc.prod cov_meas).nullMeasurableSet]
  rw [Measure.volume_eq_prod, Measure.prod_prod, ENNReal.toReal_mul, Real.volume_Icc,
    ENNReal.toReal_ofReal (sub_nonneg.mpr hr)]

/-- moving points along the last coordinate below all other points -/
theorem hvol_slab {P' : List (List ℝ)} {z z' : ℝ} (hz : ∀ p ∈ P, p.getD d 0 = z) (hz' : ∀ p ∈ P', p.getD d 0 = z')
    (hP : cov d P r = cov d P' r) (h1 : z ≤ z') (h2 : z' ≤ r.getD d 0) (hL : ∀ p ∈ L, z' ≤ p.getD d 0) :
    hvol (d + 1) (P ++ L) r = (z' - z) * hvol d P r + hvol (d + 1) (P' ++ L) r := by
  have a1 := hvol_append (d := d + 1) (P := P) (L := L) (r := r)
  have a2 := hvol_append (d := d + 1) (P := P') (L := L) (r := r)
  have e1 := hvol_succ hz (le_trans h1 h2)
  have e2 := hvol_succ hz' h2
  have e3 := hvol_congr hP
  have hi : cov (d + 1) P r ∩ cov (d + 1) L r = cov (d + 1) P' r ∩ cov (d + 1) L r := by
    ext x
    simp only [Set.mem_inter_iff]
    refine and_congr_left ?_
    intro hxL
    have key : ∀ (Q : List (List ℝ)) (w : ℝ), (∀ p ∈ Q, p.getD d 0 = w) → w ≤ z' →
        (x ∈ cov (d + 1) Q r ↔ (∀ i, x i ≤ pt (d + 1) r i) ∧ (fun i => x i.castSucc) ∈ cov d Q r) := by
      intro Q w hw hwz
      rw [mem_cov, mem_cov]
      rw [mem_cov] at hxL
      obtain ⟨hx1, q, hq, hx2⟩ := hxL
      have hlast : z' ≤ x (Fin.last d) := le_trans (hL q hq) (hx2 (Fin.last d))
      constructor
      · rintro ⟨h1, p, hp, h2⟩
        exact ⟨h1, fun i => h1 i.castSucc, p, hp, fun i => h2 i.castSucc⟩
      · rintro ⟨h1, -, p, hp, h2⟩
        refine ⟨h1, p, hp, fun i => ?_⟩
        refine Fin.lastCases ?_ (fun i => ?_) i
        · simp only [pt, Fin.val_last, hw p hp]; exact le_trans hwz hlast
        · exact h2 i
    rw [key P z hz h1, key P' z' hz' le_rfl, hP]
  rw [hi] at a1
  rw [e1] at a1
  rw [e2] at a2
  rw [e3] at a1 ⊢
  linarith

/-- the part of a box covered by other boxes -/
theorem hvol_cons {l : List ℝ → List ℝ} (hl : ∀ q ∈ L, ∀ i : Nat, i < d → (l q).getD i 0 = max (q.getD i 0) (p.getD i 0)) :
    hvol d (p :: L) r = hvol d L r + (hvol d [p] r - hvol d (L.map l) r) := by
  have a := hvol_append (d := d) (P := [p]) (L := L) (r := r)
  have hi : cov d [p] r ∩ cov d L r = cov d (L.map l) r := by
    ext x
    simp only [Set.mem_inter_iff, mem_cov, List.mem_singleton, List.mem_map, exists_eq_left]
    constructor
    · rintro ⟨⟨h1, h2⟩, -, q, hq, h3⟩
      refine ⟨h1, l q, ⟨q, hq, rfl⟩, fun i => ?_⟩
      simp only [pt]
      rw [hl q hq i i.2]
      exact max_le (h3 i) (h2 i)
    · rintro ⟨h1, q', ⟨q, hq, rfl⟩, h3⟩
      simp only [pt] at h3
      refine ⟨⟨h1, fun i => ?_⟩, h1, q, hq, fun i => ?_⟩
      · have := h3 i; rw [hl q hq i i.2] at this; exact le_trans (le_max_right _ _) this
      · have := h3 i; rw [hl q hq i i.2] at this; exact le_trans (le_max_left _ _) this
  rw [hi] at a
  change hvol d ([p] ++ L) r + hvol d (L.map l) r = _ at a
  rw [List.singleton_append] at a
  linarith

end Verif.Spec
