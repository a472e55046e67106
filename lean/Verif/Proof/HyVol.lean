import Verif.Proof.HyStep
import Verif.Proof.HvMeasure
import Mathlib.Data.Fin.VecNotation

/-!
# HyCon3D: the loop and the volumes
-/

set_option autoImplicit false

namespace Verif.Hv

open Verif Verif.Spec MeasureTheory

variable {low : ℝ}

/-- the box between a point and the reference point, without its upper faces -/
def Q3 (r p : List ℝ) : Set (Fin 3 → ℝ) := Set.univ.pi fun i => Set.Ico (pt 3 p i) (pt 3 r i)

theorem mem_Q3 {r p : List ℝ} {v : Fin 3 → ℝ} :
    v ∈ Q3 r p ↔ (cX p ≤ v 0 ∧ v 0 < cX r) ∧ (cY p ≤ v 1 ∧ v 1 < cY r) ∧ (cZ p ≤ v 2 ∧ v 2 < cZ r) := by
  unfold Q3
  simp only [Set.mem_univ_pi, Set.mem_Ico]
  constructor
  · intro h; exact ⟨h 0, h 1, h 2⟩
  · rintro ⟨h0, h1, h2⟩ i
    fin_cases i
    · exact h0
    · exact h1
    · exact h2

theorem Q3_meas {r p : List ℝ} : MeasurableSet (Q3 r p) :=
  MeasurableSet.univ_pi fun _ => measurableSet_Ico

/-- what only point `j` covers -/
def Only (r : List ℝ) (P : List (List ℝ)) (j : Nat) : Set (Fin 3 → ℝ) :=
  Q3 r (P.getD j []) \ ⋃ q ∈ P.eraseIdx j, Q3 r q

theorem mem_Only {r : List ℝ} {P : List (List ℝ)} {j : Nat} {v : Fin 3 → ℝ} :
    v ∈ Only r P j ↔ v ∈ Q3 r (P.getD j []) ∧ ∀ m, m < P.length → m ≠ j → v ∉ Q3 r (P.getD m []) := by
  unfold Only
  simp only [Set.mem_diff, Set.mem_iUnion, not_exists, List.mem_eraseIdx_iff_getElem?]
  refine and_congr_right fun _ => ⟨fun h m hm hj => ?_, fun h q ⟨i, hi, hq⟩ => ?_⟩
  · have : P[m]? = some (P.getD m []) := by simp [List.getD_eq_getElem?_getD, hm]
    exact h _ ⟨m, hj, this⟩
  · have hl := (List.getElem?_eq_some_iff.mp hq).1
    have := h i hl hi
    rwa [List.getD_eq_getElem?_getD, hq] at this

theorem Only_meas {r : List ℝ} {P : List (List ℝ)} {j : Nat} : MeasurableSet (Only r P j) := by
  refine Q3_meas.diff ?_
  induction P.eraseIdx j with
  | nil => simp
  | cons q l ih => simp only [List.mem_cons, Set.iUnion_iUnion_eq_or_left]; exact Q3_meas.union ih

theorem Only_finite {r : List ℝ} {P : List (List ℝ)} {j : Nat} {S : Set (Fin 3 → ℝ)} : volume (Only r P j ∩ S) ≠ ⊤ := by
  refine ne_top_of_le_ne_top ?_ (measure_mono (Set.inter_subset_left.trans Set.diff_subset))
  unfold Q3
  rw [Real.volume_pi_Ico]
  exact (ENNReal.prod_lt_top fun _ _ => ENNReal.ofReal_lt_top).ne

/-- the same with closed boxes -/
theorem only_closed {r : List ℝ} {P : List (List ℝ)} {j : Nat} :
    volume (Set.Icc (pt 3 (P.getD j [])) (pt 3 r) \ ⋃ q ∈ P.eraseIdx j, Set.Icc (pt 3 q) (pt 3 r)) = volume (Only r P j) := by
  have hae : ∀ q : List ℝ, Q3 r q =ᵐ[volume] Set.Icc (pt 3 q) (pt 3 r) := fun q => Measure.univ_pi_Ico_ae_eq_Icc
  refine (measure_congr (Filter.EventuallyEq.diff (hae _) ?_)).symm
  induction P.eraseIdx j with
  | nil => simp
  | cons q l ih =>
    simp only [List.mem_cons, Set.iUnion_iUnion_eq_or_left]
    exact (hae q).union ih

/-- the volume only point `j` covers below level `z` -/
noncomputable def Vol (r : List ℝ) (P : List (List ℝ)) (j : Nat) (z : ℝ) : ℝ :=
  (volume (Only r P j ∩ {v | v 2 < z})).toReal

theorem Vol_zero {r : List ℝ} {P : List (List ℝ)} {j : Nat} {z : ℝ} (h : z ≤ cZ (P.getD j [])) : Vol r P j z = 0 := by
  unfold Vol
  have : Only r P j ∩ {v | v 2 < z} = ∅ := by
    ext v
    simp only [Set.mem_inter_iff, mem_Only, mem_Q3, Set.mem_setOf_eq, Set.mem_empty_iff_false, iff_false]
    rintro ⟨⟨⟨-, -, h1⟩, -⟩, h2⟩
    exact absurd (h2.trans_le (h.trans h1.1)) (lt_irrefl _)
  rw [this]; simp

theorem Vol_all {r : List ℝ} {P : List (List ℝ)} {j : Nat} : Vol r P j (cZ r) = (volume (Only r P j)).toReal := by
  unfold Vol
  congr 2
  ext v
  simp only [Set.mem_inter_iff, mem_Only, mem_Q3, Set.mem_setOf_eq]
  exact ⟨fun h => h.1, fun h => ⟨h, h.1.2.2.2⟩⟩

/-- the part of space over the boxes between two levels -/
def slab (bs : List (Box3 ℝ)) (z z' : ℝ) : Set (Fin 3 → ℝ) := {v | InRow bs (v 0) (v 1) ∧ z ≤ v 2 ∧ v 2 < z'}

theorem slab_vol {qy w a z z' : ℝ} {bs : List (Box3 ℝ)} (h : RowR qy w a bs) (hz : z ≤ z') :
    MeasurableSet (slab bs z z') ∧ volume (slab bs z z') ≠ ⊤ ∧
      (volume (slab bs z z')).toReal = (z' - z) * areaSum bs := by
  induction bs generalizing a with
  | nil =>
    have : slab [] z z' = ∅ := by
      ext v; simp only [slab, Set.mem_setOf_eq, Set.mem_empty_iff_false, iff_false]; exact fun h => inRow_nil _ _ h.1
    rw [this]; simp [areaSum]
  | cons b bs ih =>
    obtain ⟨h1, h2, h3, h4, h5, h6, h7⟩ := id h
    obtain ⟨i1, i2, i3⟩ := ih h7
    let B : Set (Fin 3 → ℝ) := Set.univ.pi fun i => Set.Ico (![b.ux, b.uy, z] i) (![b.lx, b.ly, z'] i)
    have hB : MeasurableSet B := MeasurableSet.univ_pi fun _ => measurableSet_Ico
    have hmem : ∀ v, v ∈ B ↔ (b.ux ≤ v 0 ∧ v 0 < b.lx) ∧ (b.uy ≤ v 1 ∧ v 1 < b.ly) ∧ (z ≤ v 2 ∧ v 2 < z') := by
      intro v
      simp only [B, Set.mem_univ_pi, Set.mem_Ico]
      constructor
      · intro h; exact ⟨h 0, h 1, h 2⟩
      · rintro ⟨h0, h1, h2⟩ i
        fin_cases i
        · exact h0
        · exact h1
        · exact h2
    have hset : slab (b :: bs) z z' = B ∪ slab bs z z' := by
      ext v
      simp only [slab, Set.mem_setOf_eq, Set.mem_union, hmem, inRow_cons]
      tauto
    have hdis : Disjoint B (slab bs z z') := by
      rw [Set.disjoint_left]
      intro v hv hv'
      rw [hmem] at hv
      obtain ⟨⟨b', hb', hb'1⟩, -⟩ := hv'
      have := (h7.start b' hb').1
      exact absurd (hv.1.2.trans_le (this.trans hb'1.1)) (lt_irrefl _)
    have hBv : (volume B).toReal = (b.lx - b.ux) * (b.ly - b.uy) * (z' - z) := by
      simp only [B]
      rw [Real.volume_pi_Ico_toReal]
      · simp [Fin.prod_univ_three]
      · intro i
        have hg := h.good b (by simp)
        fin_cases i
        · exact hg.x
        · exact hg.y
        · exact hz
    have hBf : volume B ≠ ⊤ := by
      simp only [B]
      rw [Real.volume_pi_Ico]
      exact (ENNReal.prod_lt_top fun _ _ => ENNReal.ofReal_lt_top).ne
    rw [hset]
    refine ⟨hB.union i1, (measure_union_lt_top hBf.lt_top i2.lt_top).ne, ?_⟩
    rw [measure_union hdis i1, ENNReal.toReal_add hBf i2, hBv, i3]
    simp only [areaSum, List.map_cons, List.sum_cons]
    ring

/-- the part of the plane only point `j` covers among the first `k` points -/
def Excl (P : List (List ℝ)) (r : List ℝ) (k j : Nat) (x y : ℝ) : Prop :=
  cX (P.getD j []) ≤ x ∧ x < cX r ∧ cY (P.getD j []) ≤ y ∧ y < cY r ∧
    ∀ m, m < k → m ≠ j → ¬ (cX (P.getD m []) ≤ x ∧ cY (P.getD m []) ≤ y)

theorem Vol_slab {P : List (List ℝ)} {r : List ℝ} {k j : Nat} {z z' qy w a : ℝ} {bs : List (Box3 ℝ)}
    (hrow : RowR qy w a bs) (ht : ∀ x y, InRow bs x y ↔ Excl P r k j x y) (hz : z ≤ z') (hr : z' ≤ cZ r) (hj : j < k)
    (hk : k ≤ P.length) (h1 : ∀ m, m < k → cZ (P.getD m []) ≤ z) (h2 : ∀ m, k ≤ m → m < P.length → z' ≤ cZ (P.getD m [])) :
    Vol r P j z' = Vol r P j z + (z' - z) * areaSum bs := by
  obtain ⟨s1, s2, s3⟩ := slab_vol hrow hz
  have hset : Only r P j ∩ {v | v 2 < z'} = (Only r P j ∩ {v | v 2 < z}) ∪ slab bs z z' := by
    ext v
    simp only [Set.mem_inter_iff, Set.mem_union, Set.mem_setOf_eq, slab, ht]
    constructor
    · rintro ⟨ho, hv⟩
      by_cases hvz : v 2 < z
      · exact Or.inl ⟨ho, hvz⟩
      · refine Or.inr ⟨?_, not_lt.mp hvz, hv⟩
        rw [mem_Only, mem_Q3] at ho
        refine ⟨ho.1.1.1, ho.1.1.2, ho.1.2.1.1, ho.1.2.1.2, fun m hm hmj hc => ?_⟩
        refine ho.2 m (by omega) hmj ?_
        rw [mem_Q3]
        exact ⟨⟨hc.1, ho.1.1.2⟩, ⟨hc.2, ho.1.2.1.2⟩, (h1 m hm).trans (not_lt.mp hvz), hv.trans_le hr⟩
    · rintro (⟨ho, hv⟩ | ⟨⟨e1, e2, e3, e4, e5⟩, hv, hv'⟩)
      · exact ⟨ho, hv.trans_le hz⟩
      · refine ⟨?_, hv'⟩
        rw [mem_Only, mem_Q3]
        refine ⟨⟨⟨e1, e2⟩, ⟨e3, e4⟩, (h1 j hj).trans hv, hv'.trans_le hr⟩, fun m hm hmj hc => ?_⟩
        rw [mem_Q3] at hc
        by_cases hmk : m < k
        · exact e5 m hmk hmj ⟨hc.1.1, hc.2.1.1⟩
        · exact absurd (hv'.trans_le ((h2 m (by omega) hm).trans hc.2.2.1)) (lt_irrefl _)
  have hdis : Disjoint (Only r P j ∩ {v | v 2 < z}) (slab bs z z') := by
    rw [Set.disjoint_left]
    rintro v ⟨-, hv⟩ ⟨-, hv', -⟩
    exact absurd (lt_of_lt_of_le hv hv') (lt_irrefl _)
  unfold Vol
  rw [hset, measure_union hdis s1, ENNReal.toReal_add Only_finite s2, s3]

/-- Invariant of the loop before point `k`; `z` is the level of the last point. -/
structure HyInv (low : ℝ) (r : List ℝ) (P ps : List (List ℝ)) (k : Nat) (z : ℝ) (s : HyState ℝ) (pre M : List (Node ℝ)) :
    Prop where
  st : HySt low r P.length ps z s pre M
  lt : ∀ e ∈ pre ++ M, e.2 < k ∧ P.getD e.2 [] = e.1
  tile : ∀ e ∈ M, ∀ x y, InRow (s.L.getD e.2 []) x y ↔ Excl P r k e.2 x y
  out : ∀ j, j < k → j ∉ M.map (·.2) → (∀ w, acct w (s.L.getD j []) = 0) ∧ ∀ x y, ¬ Excl P r k j x y
  cover : ∀ m, m < k → ∀ x y, x < cX r → cX (P.getD m []) ≤ x → cY (P.getD m []) ≤ y →
    ∃ e ∈ M, cX e.1 ≤ x ∧ cY e.1 ≤ y
  fresh : ∀ j, k ≤ j → s.L.getD j [] = []
  acc : ∀ j, j < P.length → s.c.getD j 0 + acct z (s.L.getD j []) = Vol r P j z

/-- the volumes at the level of the next point, before its step -/
theorem HyInv.lift {r : List ℝ} {P ps : List (List ℝ)} {k : Nat} {z : ℝ} {s : HyState ℝ} {pre M : List (Node ℝ)}
    (h : HyInv low r P ps k z s pre M) {z' : ℝ} (hz : z ≤ z') (hr : z' ≤ cZ r) (hk : k ≤ P.length)
    (h1 : ∀ m, m < k → cZ (P.getD m []) ≤ z) (h2 : ∀ m, k ≤ m → m < P.length → z' ≤ cZ (P.getD m []))
    (j : Nat) (hj : j < P.length) : s.c.getD j 0 + acct z' (s.L.getD j []) = Vol r P j z' := by
  have ha := h.acc j hj
  by_cases hjk : j < k
  · by_cases hM : j ∈ M.map (·.2)
    · obtain ⟨e, he, rfl⟩ := List.mem_map.mp hM
      have hv := Vol_slab (bs := (s.L.getD e.2 []).reverse) (h.st.row e he)
        (fun x y => (inRow_reverse _ x y).trans (h.tile e he x y)) hz hr hjk hk h1 h2
      have har : areaSum (s.L.getD e.2 []).reverse = areaSum (s.L.getD e.2 []) := by
        unfold areaSum; rw [List.map_reverse, List.sum_reverse]
      rw [hv, ← ha, acct_shift z z', har]
      ring
    · obtain ⟨o1, o2⟩ := h.out j hjk hM
      have hv := Vol_slab (P := P) (r := r) (k := k) (j := j) (bs := []) (qy := 0) (w := 0) (a := 0) trivial
        (fun x y => ⟨fun hc => absurd hc (inRow_nil _ _), fun hc => absurd hc (o2 x y)⟩) hz hr hjk hk h1 h2
      rw [o1] at ha ⊢
      rw [hv, ← ha]
      simp [areaSum]
  · have hf := h.fresh j (by omega)
    have hzj := h2 j (by omega) hj
    rw [hf, acct_nil] at ha ⊢
    rw [ha, Vol_zero hzj, Vol_zero (hz.trans hzj)]

/-- the place of the new point in the tree -/
theorem hyInsert_ok {p : List ℝ} {k : Nat} {A B : List (Node ℝ)} (hA : ∀ e ∈ A, cX p ≤ cX e.1) (hB : ∀ e ∈ B, cX e.1 < cX p) :
    hyInsert (RN low) (p, k) (A ++ B) = A ++ (p, k) :: B := by
  unfold hyInsert
  let f : Node ℝ → Bool := fun a => !((RN low).lt ((RN low).at a.1 0) ((RN low).at p 0))
  have hf : ∀ e, f e = true ↔ cX p ≤ cX e.1 := by
    intro e
    change (!decide (cX e.1 < cX p)) = true ↔ _
    simp
  have hsp : (A ++ B).span f = (A, B) := by
    rw [List.span_eq_takeWhile_dropWhile]
    have hB' : B.takeWhile f = [] ∧ B.dropWhile f = B := by
      cases B with
      | nil => simp
      | cons b l =>
        have : ¬ f b = true := by rw [hf]; exact not_le.mpr (hB b (by simp))
        simp [this]
    induction A with
    | nil => simp [hB'.1, hB'.2]
    | cons a l ih =>
      have ha : f a = true := (hf a).mpr (hA a (by simp))
      have ih := ih (fun e he => hA e (by simp [he]))
      simp only [Prod.mk.injEq] at ih
      simp [ha, ih.1, ih.2]
  change ((A ++ B).span f).1 ++ (p, k) :: ((A ++ B).span f).2 = _
  rw [hsp]

/-- the points are good for the algorithm -/
structure HyPts (low : ℝ) (r : List ℝ) (P : List (List ℝ)) : Prop where
  below : ∀ m, m < P.length → cX (P.getD m []) ≤ cX r ∧ cY (P.getD m []) ≤ cY r ∧ cZ (P.getD m []) ≤ cZ r
  above : ∀ m, m < P.length → low < cX (P.getD m []) ∧ low < cY (P.getD m [])
  level : ∀ m m', m ≤ m' → m' < P.length → cZ (P.getD m []) ≤ cZ (P.getD m' [])
  apart : ∀ m m', m < m' → m' < P.length → cX (P.getD m []) ≠ cX (P.getD m' [])
  ne : P ≠ []

theorem HyPts.low_lt {r : List ℝ} {P : List (List ℝ)} (h : HyPts low r P) : low < cX r ∧ low < cY r := by
  have h0 : 0 < P.length := List.length_pos_iff.mpr h.ne
  exact ⟨(h.above 0 h0).1.trans_le (h.below 0 h0).1, (h.above 0 h0).2.trans_le (h.below 0 h0).2.1⟩

/-- the list of points with the sentinels -/
def withSen (low : ℝ) (r : List ℝ) (P : List (List ℝ)) : List (List ℝ) := P ++ [senZ low r, senX low r, senY low r]

theorem withSen_get {r : List ℝ} {P : List (List ℝ)} :
    (∀ k, k < P.length → (withSen low r P)[k]? = some (P.getD k [])) ∧
    (withSen low r P)[P.length]? = some (senZ low r) ∧ (withSen low r P)[P.length + 1]? = some (senX low r) ∧
    (withSen low r P)[P.length + 2]? = some (senY low r) := by
  unfold withSen
  refine ⟨fun k hk => ?_, ?_, ?_, ?_⟩
  · rw [List.getElem?_append_left hk]; simp [List.getD_eq_getElem?_getD, hk]
  · rw [List.getElem?_append_right (by omega)]; simp
  · rw [List.getElem?_append_right (by omega)]; simp
  · rw [List.getElem?_append_right (by omega)]; simp

theorem HyInv.notk {r : List ℝ} {P ps : List (List ℝ)} {k : Nat} {z : ℝ} {s : HyState ℝ} {pre M : List (Node ℝ)}
    (h : HyInv low r P ps k z s pre M) : k ∉ M.map (·.2) := by
  intro hc
  obtain ⟨e, he, heq⟩ := List.mem_map.mp hc
  have := (h.lt e (by simp [he])).1
  omega

/-- a step for a point -/
theorem hyInv_step {big : ℝ} {r : List ℝ} {P : List (List ℝ)} (hP : HyPts low r P) {k : Nat} (hk : k < P.length)
    (hk0 : 0 < k) {s : HyState ℝ} {pre M : List (Node ℝ)}
    (h : HyInv low r P (withSen low r P) k (cZ (P.getD (k - 1) [])) s pre M) :
    hyStep (RN low) big (withSen low r P) k s = .ok none ∨
    ∃ s' M', hyStep (RN low) big (withSen low r P) k s = .ok (some s') ∧
      HyInv low r P (withSen low r P) (k + 1) (cZ (P.getD k [])) s' pre M' := by
  obtain ⟨w1, w2, w3, w4⟩ := withSen_get (low := low) (r := r) (P := P)
  have hzz : cZ (P.getD (k - 1) []) ≤ cZ (P.getD k []) := hP.level _ _ (by omega) hk
  have hlift := h.lift hzz (hP.below k hk).2.2 hk.le (fun m hm => hP.level _ _ (by omega) (by omega))
    (fun m hm hm' => hP.level _ _ hm hm')
  obtain ⟨p, hp⟩ : ∃ p, p = P.getD k [] := ⟨_, rfl⟩
  have hab := hP.above k hk
  have hbe := hP.below k hk
  have hpk := w1 k hk
  rw [← hp] at hzz hlift hab hbe hpk ⊢
  rcases hyStep_ok (big := big) h.st hk.le hpk w3 w4 h.notk (h.fresh k le_rfl) hab.1.le hab.2.le hbe.1 hzz
    (fun e he => by
      have := h.lt e he
      rw [← this.2, hp]
      exact hP.apart _ _ this.1 hk) hP.low_lt with hn | ⟨s', X, D, M2, hs, hM, hN⟩
  · exact Or.inl hn
  right
  refine ⟨s', X ++ (p, k) :: M2, hs, ?_⟩
  have hinM : ∀ e, e ∈ X ∨ e ∈ D ∨ e ∈ M2 → e ∈ M := by
    intro e he
    rw [hM]
    simp only [List.mem_append]
    tauto
  have hmem : ∀ e, e ∈ X ++ (p, k) :: M2 ↔ e = (p, k) ∨ e ∈ X ++ M2 := by
    intro e
    simp only [List.mem_append, List.mem_cons]
    tauto
  have hXM : ∀ e, e ∈ X ++ M2 → e ∈ M := by
    intro e he
    rcases List.mem_append.mp he with he | he
    · exact hinM e (Or.inl he)
    · exact hinM e (Or.inr (Or.inr he))
  have hltM : ∀ e ∈ M, e.2 < k ∧ P.getD e.2 [] = e.1 := fun e he => h.lt e (List.mem_append_right _ he)
  have hsort := h.st.sorted
  rw [hM, List.pairwise_append, List.pairwise_append] at hsort
  obtain ⟨⟨hsX, hsD, hsXD⟩, hsM2, hsXDM⟩ := hsort
  have htile : ∀ e ∈ X ++ (p, k) :: M2, ∀ x y, InRow (s'.L.getD e.2 []) x y ↔ Excl P r (k + 1) e.2 x y := by
    intro e he x y
    rcases (hmem e).mp he with rfl | he
    · rw [hN.new.2.2]
      unfold Excl
      simp only [← hp]
      constructor
      · rintro ⟨h1, h2, h3, h4, h5⟩
        refine ⟨h1, h2, h3, h4, fun m hm hmk hc => ?_⟩
        obtain ⟨e, he, hex, hey⟩ := h.cover m (by omega) x y h2 hc.1 hc.2
        exact h5 e (by rw [← hM]; exact he) ⟨hex, hey⟩
      · rintro ⟨h1, h2, h3, h4, h5⟩
        refine ⟨h1, h2, h3, h4, fun e he hc => ?_⟩
        have := hltM e (by rw [hM]; exact he)
        refine h5 e.2 (by omega) (by omega) ?_
        rw [this.2]; exact hc
    · have hel := hltM e (hXM e he)
      rw [(hN.kept e he).2, h.tile e (hXM e he)]
      unfold Excl
      constructor
      · rintro ⟨⟨h1, h2, h3, h4, h5⟩, h6⟩
        refine ⟨h1, h2, h3, h4, fun m hm hmj hc => ?_⟩
        rcases Nat.lt_succ_iff_lt_or_eq.mp hm with hm | rfl
        · exact h5 m hm hmj hc
        · rw [← hp] at hc; exact h6 hc
      · rintro ⟨h1, h2, h3, h4, h5⟩
        refine ⟨⟨h1, h2, h3, h4, fun m hm hmj => h5 m (by omega) hmj⟩, fun hc => ?_⟩
        refine h5 k (by omega) (by omega) ?_
        rw [← hp]; exact hc
  have hlt' : ∀ e ∈ pre ++ (X ++ (p, k) :: M2), e.2 < k + 1 ∧ P.getD e.2 [] = e.1 := by
    intro e he
    rcases List.mem_append.mp he with he | he
    · have := h.lt e (List.mem_append_left _ he)
      exact ⟨by omega, this.2⟩
    · rcases (hmem e).mp he with rfl | he
      · exact ⟨by simp, hp.symm⟩
      · have := hltM e (hXM e he)
        exact ⟨by omega, this.2⟩
  have hfresh : ∀ j, k + 1 ≤ j → s'.L.getD j [] = [] := by
    intro j hj
    rw [hN.same j ?_ (by omega), h.fresh j (by omega)]
    intro hc
    obtain ⟨e, he, rfl⟩ := List.mem_map.mp hc
    have := (hltM e (by rw [hM]; exact he)).1
    omega
  refine ⟨⟨?_, h.st.hpre, ?_, ?_, ?_, ?_, hN.lenL, hN.lenC, ?_, ?_, ?_⟩, hlt', htile, ?_, ?_, hfresh, ?_⟩
  · rw [hN.T]
    have e1 : (pre ++ [(senX low r, P.length + 1)]) ++ (X ++ M2) ++ [(senY low r, P.length + 2)] =
        (pre ++ [(senX low r, P.length + 1)] ++ X) ++ (M2 ++ [(senY low r, P.length + 2)]) := by simp
    rw [e1, hyInsert_ok]
    · simp
    · intro e he
      rcases List.mem_append.mp he with he | he
      · rcases List.mem_append.mp he with he | he
        · rw [h.st.hpre e he]; exact hN.px.le
        · rw [List.mem_singleton.mp he]; exact hN.px.le
      · exact (hN.onX e he).1.le
    · intro e he
      rcases List.mem_append.mp he with he | he
      · exact (hN.onM e he).1
      · rw [List.mem_singleton.mp he]; exact hab.1
  · intro e he
    rcases (hmem e).mp he with rfl | he
    · exact ⟨hk, hpk⟩
    · exact h.st.idx e (hXM e he)
  · have hnd := h.st.nodup
    have hkn := h.notk
    rw [hM] at hnd hkn
    have hsub : ((X ++ M2).map (·.2)).Sublist ((X ++ D ++ M2).map (·.2)) := by
      refine List.Sublist.map _ (List.Sublist.append (List.sublist_append_left _ _) (List.Sublist.refl _))
    have hp1 : ((X ++ (p, k) :: M2).map (·.2)).Perm (k :: (X ++ M2).map (·.2)) := by
      simp only [List.map_append, List.map_cons]
      exact List.perm_middle
    rw [hp1.nodup_iff, List.nodup_cons]
    exact ⟨fun hc => hkn (hsub.subset hc), hnd.sublist hsub⟩
  · rw [List.pairwise_append, List.pairwise_cons]
    refine ⟨hsX, ⟨fun b hb => ⟨(hN.onM b hb).1, (hN.onM b hb).2.le⟩, hsM2⟩, ?_⟩
    intro a ha b hb
    rcases List.mem_cons.mp hb with rfl | hb
    · exact ⟨(hN.onX a ha).1, (hN.onX a ha).2⟩
    · exact hsXDM a (by simp [ha]) b hb
  · intro e he
    rcases (hmem e).mp he with rfl | he
    · exact ⟨hab.1, hab.2, hN.px, hbe.2.1⟩
    · exact h.st.bd e (hXM e he)
  · intro e he
    rcases (hmem e).mp he with rfl | he
    · exact hN.new.1
    · exact (hN.kept e he).1
  · intro e he x y hr
    have hex := (htile e he x y).mp hr
    have hel := hlt' e (List.mem_append_right _ he)
    refine ⟨by rw [← hel.2]; exact hex.1, by rw [← hel.2]; exact hex.2.2.1, fun e' he' hne hc => ?_⟩
    have hel' := hlt' e' (List.mem_append_right _ he')
    refine hex.2.2.2.2 e'.2 hel'.1 hne ?_
    rw [hel'.2]; exact hc
  · exact ⟨hfresh _ (by omega), hfresh _ (by omega)⟩
  · intro j hj hjM
    have hjk : j ≠ k := by
      rintro rfl
      exact hjM (List.mem_map.mpr ⟨(p, j), (hmem _).mpr (Or.inl rfl), rfl⟩)
    by_cases hD : j ∈ D.map (·.2)
    · obtain ⟨e, he, rfl⟩ := List.mem_map.mp hD
      refine ⟨fun w => by rw [hN.gone e he]; rfl, fun x y hc => ?_⟩
      have hel := hltM e (hinM e (Or.inr (Or.inl he)))
      obtain ⟨h1, h2, h3, h4, h5⟩ := hc
      rw [hel.2] at h1 h3
      refine h5 k (by omega) (by omega) ?_
      rw [← hp]
      exact ⟨(hN.onD e he).1.le.trans h1, (hN.onD e he).2.le.trans h3⟩
    · have hjM' : j ∉ M.map (·.2) := by
        intro hc
        rw [hM] at hc
        simp only [List.map_append, List.mem_append] at hc hjM
        simp only [List.map_cons, List.mem_cons] at hjM
        tauto
      have hs' := hN.same j (by rw [← hM]; exact hjM') hjk
      obtain ⟨o1, o2⟩ := h.out j (by omega) hjM'
      refine ⟨fun w => by rw [hs']; exact o1 w, fun x y hc => o2 x y ?_⟩
      obtain ⟨h1, h2, h3, h4, h5⟩ := hc
      exact ⟨h1, h2, h3, h4, fun m hm => h5 m (by omega)⟩
  · intro m hm x y hx h1 h2
    rcases Nat.lt_succ_iff_lt_or_eq.mp hm with hm | rfl
    · obtain ⟨e, he, hex, hey⟩ := h.cover m hm x y hx h1 h2
      rw [hM] at he
      rcases List.mem_append.mp he with he | he
      · rcases List.mem_append.mp he with he | he
        · exact ⟨e, (hmem e).mpr (Or.inr (by simp [he])), hex, hey⟩
        · exact ⟨(p, k), (hmem _).mpr (Or.inl rfl), (hN.onD e he).1.le.trans hex, (hN.onD e he).2.le.trans hey⟩
      · exact ⟨e, (hmem e).mpr (Or.inr (by simp [he])), hex, hey⟩
    · rw [← hp] at h1 h2
      exact ⟨(p, m), (hmem _).mpr (Or.inl rfl), h1, h2⟩
  · intro j hj
    by_cases hjk : j = k
    · subst hjk
      rw [hN.bookk, hN.new.2.1, ← hlift j hj, h.fresh j le_rfl, acct_nil]
    · rw [hN.book j hj hjk]; exact hlift j hj

/-- the last step -/
theorem hyInv_last {big : ℝ} {r : List ℝ} {P : List (List ℝ)} (hP : HyPts low r P) {s : HyState ℝ}
    {pre M : List (Node ℝ)}
    (h : HyInv low r P (withSen low r P) P.length (cZ (P.getD (P.length - 1) [])) s pre M) :
    hyStep (RN low) big (withSen low r P) P.length s = .ok none ∨
    ∃ s', hyStep (RN low) big (withSen low r P) P.length s = .ok (some s') ∧
      s'.c.length = P.length ∧ ∀ j, j < P.length → s'.c.getD j 0 = Vol r P j (cZ r) := by
  obtain ⟨w1, w2, w3, w4⟩ := withSen_get (low := low) (r := r) (P := P)
  have hlen : 0 < P.length := List.length_pos_iff.mpr hP.ne
  have hzz : cZ (P.getD (P.length - 1) []) ≤ cZ (senZ low r) := (hP.below (P.length - 1) (by omega)).2.2
  have hlift := h.lift hzz (le_refl (cZ r)) le_rfl (fun m hm => hP.level _ _ (by omega) (by omega)) (fun m hm hm' => by omega)
  rcases hyStep_ok (big := big) h.st le_rfl w2 w3 w4 h.notk (h.fresh _ le_rfl) (le_refl low) (le_refl low) hP.low_lt.1.le hzz
    (fun e he => by
      have := h.lt e he
      rw [← this.2]
      exact (hP.above _ this.1).1.ne') hP.low_lt with hn | ⟨s', X, D, M2, hs, hM, hN⟩
  · exact Or.inl hn
  right
  refine ⟨s', hs, hN.lenC, fun j hj => ?_⟩
  have hbook := hN.book j hj (by omega)
  have hl := hlift j hj
  change _ + acct (cZ r) (s'.L.getD j []) = _ + acct (cZ r) (s.L.getD j []) at hbook
  change _ + acct (cZ r) (s.L.getD j []) = _ at hl
  rw [hl] at hbook
  have hz : acct (cZ r) (s'.L.getD j []) = 0 := by
    by_cases hjM : j ∈ M.map (·.2)
    · obtain ⟨e, he, rfl⟩ := List.mem_map.mp hjM
      have hbd := h.st.bd e he
      rw [hM] at he
      rcases List.mem_append.mp he with he | he
      · rcases List.mem_append.mp he with he | he
        · exact absurd (hN.onX e he).2 (not_le.mpr hbd.2.1)
        · rw [hN.gone e he]; rfl
      · exact absurd (hN.onM e he).1 (not_lt.mpr hbd.1.le)
    · rw [hN.same j (by rw [← hM]; exact hjM) (by omega)]
      exact (h.out j hj hjM).1 _
  rw [hz, add_zero] at hbook
  exact hbook

theorem hyLoop_ok {big : ℝ} {r : List ℝ} {P : List (List ℝ)} (hP : HyPts low r P) (m k : Nat) (hkm : k + m = P.length + 1)
    (hm : 0 < m) (hk0 : 0 < k) {s : HyState ℝ} {pre M : List (Node ℝ)}
    (h : HyInv low r P (withSen low r P) k (cZ (P.getD (k - 1) [])) s pre M) :
    hyLoop (RN low) big (withSen low r P) (List.range' k m) s = .ok none ∨
    ∃ s', hyLoop (RN low) big (withSen low r P) (List.range' k m) s = .ok (some s') ∧
      s'.c.length = P.length ∧ ∀ j, j < P.length → s'.c.getD j 0 = Vol r P j (cZ r) := by
  induction m generalizing k s M with
  | zero => omega
  | succ m ih =>
    rw [List.range'_succ]
    unfold hyLoop
    by_cases hm0 : m = 0
    · subst hm0
      have hkl : k = P.length := by omega
      subst hkl
      rcases hyInv_last (big := big) hP h with hn | ⟨s', hs, hc⟩
      · left; rw [hn]; rfl
      · right; rw [hs]
        exact ⟨s', rfl, hc⟩
    · rcases hyInv_step (big := big) hP (show k < P.length by omega) hk0 h with hn | ⟨s', M', hs, hi⟩
      · left; rw [hn]; rfl
      · rw [hs]
        simp only [Outcome.bind_ok]
        exact ih (k + 1) (by omega) (by omega) (by omega) hi

end Verif.Hv
