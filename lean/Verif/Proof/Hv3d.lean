import Verif.Proof.Hv2d

/-!
# The three-dimensional sweep
-/

set_option autoImplicit false

namespace Verif.Hv

open Verif Verif.Spec

variable {low : ℝ}

abbrev cX (p : List ℝ) : ℝ := p.getD 0 0
abbrev cY (p : List ℝ) : ℝ := p.getD 1 0
abbrev cZ (p : List ℝ) : ℝ := p.getD 2 0

/-- order of the front: first coordinate decreases, second increases -/
def Stairs (a b : List ℝ) : Prop := cX b ≤ cX a ∧ cY a ≤ cY b

/-- area under a staircase given by consecutive corners -/
def stair (r0 : ℝ) : List (List ℝ) → ℝ
  | [] => 0
  | [_] => 0
  | u :: v :: l => (r0 - cX u) * (cY v - cY u) + stair r0 (v :: l)

theorem stair_insert (r0 : ℝ) (L : List (List ℝ)) (a t b : List ℝ) (R : List (List ℝ)) :
    stair r0 (L ++ a :: t :: b :: R) = stair r0 (L ++ a :: b :: R) + (cX a - cX t) * (cY b - cY t) := by
  induction L with
  | nil => simp only [List.nil_append, stair]; ring
  | cons u L ih =>
    cases L with
    | nil => simp only [List.nil_append, List.cons_append, stair]; ring
    | cons v L =>
      simp only [List.cons_append] at ih ⊢
      rw [stair, stair, ih]; ring

theorem stair_hvol {r : List ℝ} (M : List (List ℝ)) (e : List ℝ) (he : cY e = cY r)
    (hb : ∀ p ∈ M, cX p ≤ cX r ∧ cY p ≤ cY r) (hs : M.Pairwise Stairs) :
    hvol 2 M r = stair (cX r) (M ++ [e]) := by
  induction M with
  | nil => simp [hvol_nil, stair]
  | cons u M ih =>
    rw [List.pairwise_cons] at hs
    have hu := hb u (by simp)
    have ih := ih (fun p hp => hb p (by simp [hp])) hs.2
    cases M with
    | nil =>
      rw [hvol_single_range]
      · simp only [Finset.prod_range_succ, Finset.prod_range_zero, List.cons_append, List.nil_append, stair, he]
        simp
      · intro i hi
        interval_cases i
        · exact hu.1
        · exact hu.2
    | cons v M =>
      have hv := hb v (by simp)
      have huv := hs.1 v (by simp)
      have hsl := hvol_slab (d := 1) (P := [u]) (P' := [[cX u, cY v]]) (L := v :: M) (r := r) (z := cY u) (z' := cY v)
        (by simp) (by simp)
        (by
          apply Set.Subset.antisymm <;> apply cov_sub <;> intro q hq <;> simp only [List.mem_singleton] at hq <;> subst hq
          · exact ⟨_, List.mem_singleton.mpr rfl, by intro i hi; interval_cases i; simp⟩
          · exact ⟨_, List.mem_singleton.mpr rfl, by intro i hi; interval_cases i; simp⟩)
        huv.2 hv.2 (by
          intro q hq
          rcases List.mem_cons.mp hq with rfl | hq
          · exact le_rfl
          · exact (List.pairwise_cons.mp hs.2).1 q hq |>.2)
      have e1 : hvol 1 [u] r = cX r - cX u := by
        rw [hvol_single_range]
        · simp [Finset.prod_range_succ]
        · intro i hi; interval_cases i; exact hu.1
      have e2 : hvol 2 ([cX u, cY v] :: v :: M) r = hvol 2 (v :: M) r := by
        apply hvol_congr
        apply Set.Subset.antisymm <;> apply cov_sub
        · intro q hq
          rcases List.mem_cons.mp hq with rfl | hq
          · refine ⟨v, by simp, ?_⟩
            intro i hi
            interval_cases i
            · exact huv.1
            · simp
          · exact ⟨q, hq, fun _ _ => le_rfl⟩
        · intro q hq
          exact ⟨q, List.mem_cons_of_mem _ hq, fun _ _ => le_rfl⟩
      simp only [List.singleton_append] at hsl
      simp only [List.cons_append] at ih ⊢
      rw [hsl, e1, e2, ih, stair]
      ring

theorem hvol_null {d : Nat} {p r : List ℝ} {L : List (List ℝ)} (h : hvol d [p] r = 0) :
    hvol d (p :: L) r = hvol d L r := by
  have a := hvol_append (d := d) (P := [p]) (L := L) (r := r)
  have hm : (MeasureTheory.volume (cov d [p] r ∩ cov d L r)).toReal ≤ hvol d [p] r :=
    ENNReal.toReal_mono cov_finite (MeasureTheory.measure_mono Set.inter_subset_left)
  have h0 : 0 ≤ (MeasureTheory.volume (cov d [p] r ∩ cov d L r)).toReal := ENNReal.toReal_nonneg
  rw [List.singleton_append] at a
  linarith

/-- The loop over the dominated members of the front. -/
theorem hv3dBack_ok {r0 : ℝ} {p q sA : List ℝ} {R : List (List ℝ)} (hA : cY sA < cY p) (Mr : List (List ℝ)) (A : ℝ)
    (hst : A = stair r0 ((Mr ++ [sA]).reverse ++ q :: R)) (hs : ((Mr ++ [sA]).reverse ++ [q]).Pairwise Stairs) :
    ∃ A' D X t, hv3dBack (RN low) p q A (Mr ++ [sA]) = .ok (A', X ++ [sA]) ∧ Mr = D ++ X ∧ (∀ m ∈ D, cY p ≤ cY m) ∧
      A' = stair r0 ((X ++ [sA]).reverse ++ q :: R) ∧ (X ++ [sA]).head? = some t ∧ cY t < cY p := by
  induction Mr generalizing A with
  | nil =>
    refine ⟨A, [], [], sA, ?_, rfl, by simp, hst, rfl, hA⟩
    simp only [List.nil_append]
    unfold hv3dBack
    have : (RN low).le ((RN low).at p 1) ((RN low).at sA 1) = false := decide_eq_false (not_le.mpr hA)
    rw [this]
    simp
  | cons t Mr ih =>
    by_cases ht : cY p ≤ cY t
    · obtain ⟨t', ts, hts⟩ : ∃ t' ts, Mr ++ [sA] = t' :: ts := by
        cases Mr with
        | nil => exact ⟨sA, [], rfl⟩
        | cons m Mr => exact ⟨m, Mr ++ [sA], rfl⟩
      have hs1 : ((Mr ++ [sA]).reverse ++ [q]).Pairwise Stairs := by
        refine hs.sublist ?_
        simp only [List.cons_append, List.reverse_cons, List.append_assoc]
        exact List.Sublist.append (List.Sublist.refl _) (by simp)
      have hord : Stairs t' t ∧ Stairs t q := by
        have h1 : (ts.reverse ++ [t', t, q]).Pairwise Stairs := by
          have : (t :: Mr ++ [sA]).reverse ++ [q] = ts.reverse ++ [t', t, q] := by
            rw [List.cons_append, hts]; simp
          rw [← this]; exact hs
        have h2 := (List.pairwise_append.mp h1).2.1
        simp only [List.pairwise_cons, List.mem_cons, List.not_mem_nil, or_false] at h2
        exact ⟨h2.1 t (Or.inl rfl), h2.2.1 q rfl⟩
      have hval : A - |(cX t - cX t') * (cY t - cY q)| = stair r0 ((Mr ++ [sA]).reverse ++ q :: R) := by
        have hab : |(cX t - cX t') * (cY t - cY q)| = (cX t' - cX t) * (cY q - cY t) := by
          rw [show (cX t - cX t') * (cY t - cY q) = (cX t' - cX t) * (cY q - cY t) by ring]
          exact abs_of_nonneg (mul_nonneg (sub_nonneg.mpr hord.1.1) (sub_nonneg.mpr hord.2.2))
        rw [hab, hst, List.cons_append, hts]
        simp only [List.reverse_cons, List.append_assoc, List.cons_append, List.nil_append]
        rw [stair_insert]; ring
      obtain ⟨A', D, X, w, h1, h2, h3, h4, h5, h6⟩ := ih _ hval hs1
      refine ⟨A', t :: D, X, w, ?_, by rw [h2]; rfl, ?_, h4, h5, h6⟩
      · rw [List.cons_append]
        unfold hv3dBack
        have : (RN low).le ((RN low).at p 1) ((RN low).at t 1) = true := decide_eq_true ht
        rw [this, if_pos rfl]
        rw [← h1, hts]
        rfl
      · intro m hm
        rcases List.mem_cons.mp hm with rfl | hm
        · exact ht
        · exact h3 m hm
    · refine ⟨A, [], t :: Mr, t, ?_, rfl, by simp, hst, rfl, not_le.mp ht⟩
      rw [List.cons_append]
      unfold hv3dBack
      have : (RN low).le ((RN low).at p 1) ((RN low).at t 1) = false := decide_eq_false ht
      rw [this]
      simp

theorem takeWhile_snoc {α : Type} (f : α → Bool) (M : List α) (b : α) (h : f b = false) :
    (M ++ [b]).takeWhile f = M.takeWhile f ∧ (M ++ [b]).dropWhile f = M.dropWhile f ++ [b] := by
  induction M with
  | nil => simp [h]
  | cons m M ih =>
    by_cases hm : f m = true
    · simp [hm, ih.1, ih.2]
    · simp [hm]

/-- a point inside the reference box with coordinates above the sentinel value -/
structure Inside (low : ℝ) (r p : List ℝ) : Prop where
  x : cX p ≤ cX r
  y : cY p ≤ cY r
  z : cZ p ≤ cZ r
  lx : low < cX p
  ly : low < cY p

/-- the first sentinel -/
def sentA (low : ℝ) (r : List ℝ) : List ℝ := [cX r, low, cZ r]
/-- the second sentinel -/
def sentB (low : ℝ) (r : List ℝ) : List ℝ := [low, cY r, cZ r]

theorem sorted_sentinels {r : List ℝ} {M : List (List ℝ)} (hM : ∀ p ∈ M, Inside low r p) (hs : M.Pairwise Stairs)
    (hl : low ≤ cX r ∧ low ≤ cY r) :
    (sentA low r :: (M ++ [sentB low r])).Pairwise Stairs := by
  rw [List.pairwise_cons, List.pairwise_append]
  refine ⟨?_, hs, by simp, ?_⟩
  · intro b hb
    rcases List.mem_append.mp hb with hb | hb
    · exact ⟨(hM b hb).x, (hM b hb).ly.le⟩
    · rw [List.mem_singleton.mp hb]; exact ⟨hl.1, hl.2⟩
  · intro a ha b hb
    rw [List.mem_singleton.mp hb]
    exact ⟨(hM a ha).lx.le, (hM a ha).y⟩

/-- raise points to a level -/
def raise (z : ℝ) (M : List (List ℝ)) : List (List ℝ) := M.map (fun m => [cX m, cY m, z])

theorem cov_raise2 {r : List ℝ} (z : ℝ) (M : List (List ℝ)) : cov 2 (raise z M) r = cov 2 M r := by
  apply Set.Subset.antisymm <;> apply cov_sub
  · intro q hq
    obtain ⟨m, hm, rfl⟩ := List.mem_map.mp hq
    exact ⟨m, hm, by intro i hi; interval_cases i <;> simp⟩
  · intro m hm
    exact ⟨_, List.mem_map.mpr ⟨m, hm, rfl⟩, by intro i hi; interval_cases i <;> simp⟩

theorem raise_z {z : ℝ} {M : List (List ℝ)} : ∀ p ∈ raise z M, p.getD 2 0 = z := by
  intro p hp
  obtain ⟨m, -, rfl⟩ := List.mem_map.mp hp
  rfl

/-- Invariant of the sweep; `Q` are the points still to come, `V0` the volume to compute. -/
structure SweepInv (low : ℝ) (r : List ℝ) (V0 : ℝ) (Q : List (List ℝ)) (s : Sweep ℝ) (M : List (List ℝ)) : Prop where
  T : s.T = sentA low r :: (M ++ [sentB low r])
  inside : ∀ p ∈ M, Inside low r p
  sorted : M.Pairwise Stairs
  area : s.A = hvol 2 M r
  zr : s.z3 ≤ cZ r
  zq : ∀ p ∈ Q, s.z3 ≤ cZ p
  vol : V0 = s.V + hvol 3 (raise s.z3 M ++ Q) r

theorem hv3dStep_ok {r : List ℝ} (hl : low ≤ cX r ∧ low ≤ cY r) {V0 : ℝ} {p : List ℝ} {Q : List (List ℝ)} {s : Sweep ℝ}
    {M : List (List ℝ)} (h : SweepInv low r V0 (p :: Q) s M) (hp : Inside low r p) (hQ : ∀ q ∈ Q, cZ p ≤ cZ q) :
    ∃ s' M', hv3dStep (RN low) s p = .ok s' ∧ SweepInv low r V0 Q s' M' := by
  obtain ⟨hT, hin, hsort, harea, hzr, hzq, hvol'⟩ := h
  have hzp := hzq p (by simp)
  -- the split of the front
  let f : List ℝ → Bool := fun e => !((RN low).lt ((RN low).at e 0) ((RN low).at p 0))
  have hf : ∀ e, f e = true ↔ cX p ≤ cX e := by
    intro e
    change (!decide (cX e < cX p)) = true ↔ _
    simp
  have hfB : f (sentB low r) = false := by
    rw [Bool.eq_false_iff, ne_eq, hf]; exact not_le.mpr hp.lx
  have hfA : f (sentA low r) = true := (hf _).mpr hp.x
  have hsplit : msetSplit (RN low) p s.T = (sentA low r :: M.takeWhile f, M.dropWhile f ++ [sentB low r]) := by
    unfold msetSplit
    rw [List.span_eq_takeWhile_dropWhile, hT, List.takeWhile_cons, List.dropWhile_cons]
    change (if f (sentA low r) = true then _ else _, if f (sentA low r) = true then _ else _) = _
    rw [hfA]
    simp only [if_true]
    rw [(takeWhile_snoc f M _ hfB).1, (takeWhile_snoc f M _ hfB).2]
  have hM : M = M.takeWhile f ++ M.dropWhile f := (List.takeWhile_append_dropWhile).symm
  generalize hM1 : M.takeWhile f = M1 at hsplit hM
  generalize hM2 : M.dropWhile f = M2 at hsplit hM
  have hx1 : ∀ m ∈ M1, cX p ≤ cX m := by
    intro m hm
    rw [← hM1] at hm
    exact (hf m).mp (List.all_eq_true.mp (List.all_takeWhile (l := M)) m hm)
  have hsort' := hsort
  rw [hM, List.pairwise_append] at hsort'
  have hx2 : ∀ m ∈ M2, cX m < cX p := by
    intro m hm
    cases hM2' : M2 with
    | nil => rw [hM2'] at hm; simp at hm
    | cons w W =>
      have hw : cX w < cX p := by
        have : f w = false := by
          have h1 := List.head_dropWhile_not f (l := M) (by rw [hM2, hM2']; simp)
          have h2 : (M.dropWhile f).head (by rw [hM2, hM2']; simp) = w := by
            simp [hM2, hM2']
          rw [h2] at h1; exact h1
        by_contra hc
        rw [(hf w).mpr (not_lt.mp hc)] at this
        cases this
      rw [hM2'] at hm
      rcases List.mem_cons.mp hm with rfl | hm
      · exact hw
      · have h3 := hsort'.2.1
        rw [hM2'] at h3
        exact lt_of_le_of_lt ((List.pairwise_cons.mp h3).1 m hm).1 hw
  obtain ⟨q, R, hqR⟩ : ∃ q R, M2 ++ [sentB low r] = q :: R := by
    cases M2 with
    | nil => exact ⟨_, [], rfl⟩
    | cons w W => exact ⟨w, W ++ [sentB low r], rfl⟩
  have hTs := sorted_sentinels hin hsort hl
  have hTeq : sentA low r :: (M ++ [sentB low r]) = (sentA low r :: M1) ++ (q :: R) := by
    rw [hM, List.append_assoc, hqR]; rfl
  unfold hv3dStep
  rw [hsplit]
  simp only [hqR]
  by_cases hdom : cY q ≤ cY p
  · -- dominated
    have hle : (RN low).le ((RN low).at q 1) ((RN low).at p 1) = true := decide_eq_true hdom
    rw [if_pos hle]
    refine ⟨s, M, rfl, hT, hin, hsort, harea, hzr, fun a ha => hzq a (by simp [ha]), ?_⟩
    rw [hvol']
    congr 1
    cases hM2' : M2 with
    | nil =>
      -- the point is on the border
      rw [hM2'] at hqR
      simp only [List.nil_append, List.cons.injEq] at hqR
      have hy : cY p = cY r := le_antisymm hp.y (by rw [← hqR.1] at hdom; exact hdom)
      have hnull : hvol 3 [p] r = 0 := by
        rw [hvol_single_range]
        · refine Finset.prod_eq_zero (i := 1) (by simp) ?_
          exact sub_eq_zero.mpr hy.symm
        · intro i hi
          interval_cases i
          · exact hp.x
          · exact hp.y
          · exact hp.z
      rw [hvol_congr (cov_perm (List.perm_middle))]
      exact hvol_null hnull
    | cons w W =>
      rw [hM2'] at hqR
      simp only [List.cons_append, List.cons.injEq] at hqR
      have hwM : w ∈ M := by rw [hM, hM2']; simp
      have hwx := hx2 w (by rw [hM2']; simp)
      apply hvol_congr
      apply Set.Subset.antisymm <;> apply cov_sub
      · intro a ha
        rcases List.mem_append.mp ha with ha | ha
        · exact ⟨a, by simp [ha], fun _ _ => le_rfl⟩
        · rcases List.mem_cons.mp ha with rfl | ha
          · refine ⟨[cX w, cY w, s.z3], List.mem_append.mpr (Or.inl (List.mem_map.mpr ⟨w, hwM, rfl⟩)), ?_⟩
            intro i hi
            interval_cases i
            · exact hwx.le
            · change cY w ≤ cY a; rw [hqR.1]; exact hdom
            · exact hzp
          · exact ⟨a, by simp [ha], fun _ _ => le_rfl⟩
      · intro a ha
        rcases List.mem_append.mp ha with ha | ha
        · exact ⟨a, by simp [ha], fun _ _ => le_rfl⟩
        · exact ⟨a, by simp [ha], fun _ _ => le_rfl⟩
  · -- the point enters the front
    have hle : (RN low).le ((RN low).at q 1) ((RN low).at p 1) = false := decide_eq_false hdom
    rw [hle]
    simp only [Bool.false_eq_true, if_false]
    have hstair : s.A = stair (cX r) ((M1.reverse ++ [sentA low r]).reverse ++ q :: R) := by
      rw [harea, stair_hvol (r := r) M (sentB low r) rfl (fun m hm => ⟨(hin m hm).x, (hin m hm).y⟩) hsort]
      have : (M1.reverse ++ [sentA low r]).reverse ++ q :: R = sentA low r :: (M ++ [sentB low r]) := by
        rw [hTeq]; simp
      rw [this]
      cases hm : M ++ [sentB low r] with
      | nil => simp at hm
      | cons u l =>
        rw [stair]
        have : cX (sentA low r) = cX r := rfl
        rw [this]; ring
    have hs2 : ((M1.reverse ++ [sentA low r]).reverse ++ [q]).Pairwise Stairs := by
      refine hTs.sublist ?_
      rw [hTeq]
      simp only [List.reverse_append, List.reverse_reverse, List.reverse_singleton, List.singleton_append, List.cons_append]
      exact List.Sublist.cons_cons _ (List.Sublist.append (List.Sublist.refl _) (by simp))
    obtain ⟨A', D, X, t, hb1, hb2, hb3, hb4, hb5, hb6⟩ := hv3dBack_ok (low := low) (p := p) (sA := sentA low r)
      (show cY (sentA low r) < cY p from hp.ly) M1.reverse s.A hstair hs2
    have hrev : (sentA low r :: M1).reverse = M1.reverse ++ [sentA low r] := by simp
    rw [hrev, hb1]
    simp only [Outcome.bind_ok]
    obtain ⟨ts, hts⟩ : ∃ ts, X ++ [sentA low r] = t :: ts := by
      cases hX : X ++ [sentA low r] with
      | nil => simp at hX
      | cons u l => rw [hX] at hb5; simp at hb5; exact ⟨l, by rw [hb5]⟩
    rw [hts]
    simp only
    have hM1eq : M1 = X.reverse ++ D.reverse := by
      have := congrArg List.reverse hb2
      simpa using this
    -- the elements that stay are below `p` in the second coordinate
    have hXs : ∀ m ∈ X, cY m < cY p := by
      intro m hm
      have h1 : ((t :: ts).reverse).Pairwise Stairs := by
        rw [← hts]
        refine hTs.sublist ?_
        rw [hTeq, hM1eq]
        simp
      rw [List.pairwise_reverse, List.pairwise_cons] at h1
      have : m ∈ t :: ts := by rw [← hts]; simp [hm]
      rcases List.mem_cons.mp this with rfl | hm'
      · exact hb6
      · exact lt_of_le_of_lt (h1.1 m hm').2 hb6
    have hxX : ∀ m ∈ X, cX p ≤ cX m := by
      intro m hm; exact hx1 m (by rw [hM1eq]; simp [hm])
    have hxt : cX p ≤ cX t := by
      have : t ∈ X ++ [sentA low r] := by rw [hts]; simp
      rcases List.mem_append.mp this with h | h
      · exact hxX t h
      · rw [List.mem_singleton.mp h]; exact hp.x
    have hym2 : ∀ m ∈ M2, cY q ≤ cY m := by
      intro m hm
      cases hM2' : M2 with
      | nil => rw [hM2'] at hm; simp at hm
      | cons w W =>
        rw [hM2'] at hqR hm
        simp only [List.cons_append, List.cons.injEq] at hqR
        rcases List.mem_cons.mp hm with rfl | hm
        · rw [hqR.1]
        · have h3 := hsort'.2.1
          rw [hM2'] at h3
          rw [← hqR.1]
          exact ((List.pairwise_cons.mp h3).1 m hm).2
    have hpq : cY p < cY q := not_le.mp hdom
    let M' := X.reverse ++ p :: M2
    have hsub : (X.reverse ++ M2).Sublist M := by
      rw [hM, hM1eq, List.append_assoc]
      exact List.Sublist.append (List.Sublist.refl _) (List.sublist_append_right _ _)
    have hin' : ∀ m ∈ M', Inside low r m := by
      intro m hm
      rcases List.mem_append.mp hm with hm | hm
      · exact hin m (hsub.subset (List.mem_append.mpr (Or.inl hm)))
      · rcases List.mem_cons.mp hm with rfl | hm
        · exact hp
        · exact hin m (hsub.subset (List.mem_append.mpr (Or.inr hm)))
    have hsort2 : M'.Pairwise Stairs := by
      have h1 := hsort.sublist hsub
      rw [List.pairwise_append] at h1
      rw [List.pairwise_append, List.pairwise_cons]
      refine ⟨h1.1, ⟨fun b hb => ⟨(hx2 b hb).le, le_trans hpq.le (hym2 b hb)⟩, h1.2.1⟩, ?_⟩
      intro a ha b hb
      rcases List.mem_cons.mp hb with rfl | hb
      · rw [List.mem_reverse] at ha
        exact ⟨hxX a ha, (hXs a ha).le⟩
      · exact h1.2.2 a ha b hb
    have hT' : (t :: ts).reverse ++ p :: q :: R = sentA low r :: (M' ++ [sentB low r]) := by
      rw [← hts, ← hqR]
      simp [M']
    have hareaNew : A' + |(cX p - cX t) * (cY p - cY q)| = hvol 2 M' r := by
      rw [stair_hvol (r := r) M' (sentB low r) rfl (fun m hm => ⟨(hin' m hm).x, (hin' m hm).y⟩) hsort2]
      have h1 : stair (cX r) (M' ++ [sentB low r]) = stair (cX r) ((t :: ts).reverse ++ p :: q :: R) := by
        rw [hT']
        cases hm : M' ++ [sentB low r] with
        | nil => simp at hm
        | cons u l =>
          rw [stair]
          have : cX (sentA low r) = cX r := rfl
          rw [this]; ring
      rw [h1, hb4, hts]
      simp only [List.reverse_cons, List.append_assoc, List.cons_append, List.nil_append]
      rw [stair_insert]
      congr 1
      rw [show (cX p - cX t) * (cY p - cY q) = (cX t - cX p) * (cY q - cY p) by ring]
      exact abs_of_nonneg (mul_nonneg (sub_nonneg.mpr hxt) (sub_nonneg.mpr hpq.le))
    have hz : |s.z3 - cZ p| = cZ p - s.z3 := by
      rw [abs_of_nonpos (sub_nonpos.mpr hzp)]; ring
    refine ⟨_, M', rfl, hT', hin', hsort2, hareaNew, hp.z, hQ, ?_⟩
    change V0 = (s.V + s.A * |s.z3 - cZ p|) + hvol 3 (raise (cZ p) M' ++ Q) r
    rw [hz, hvol', harea]
    have hslab := hvol_slab (d := 2) (P := raise s.z3 M) (P' := raise (cZ p) M) (L := p :: Q) (r := r) (z := s.z3)
      (z' := cZ p) raise_z raise_z (by rw [cov_raise2, cov_raise2]) hzp hp.z (by
        intro a ha
        rcases List.mem_cons.mp ha with rfl | ha
        · exact le_rfl
        · exact hQ a ha)
    rw [hvol_congr (cov_raise2 s.z3 M)] at hslab
    rw [hslab]
    have hcov : hvol 3 (raise (cZ p) M ++ p :: Q) r = hvol 3 (raise (cZ p) M' ++ Q) r := by
      apply hvol_congr
      apply Set.Subset.antisymm <;> apply cov_sub
      · intro a ha
        rcases List.mem_append.mp ha with ha | ha
        · obtain ⟨m, hm, rfl⟩ := List.mem_map.mp ha
          by_cases hk : m ∈ M'
          · exact ⟨_, List.mem_append.mpr (Or.inl (List.mem_map.mpr ⟨m, hk, rfl⟩)), fun _ _ => le_rfl⟩
          · have hmD : m ∈ D := by
              rw [hM, hM1eq] at hm
              simp only [List.mem_append, List.mem_reverse] at hm
              rcases hm with (hm | hm) | hm
              · exact absurd (by simp [M', hm]) hk
              · exact hm
              · exact absurd (by simp [M', hm]) hk
            refine ⟨[cX p, cY p, cZ p], List.mem_append.mpr (Or.inl (List.mem_map.mpr ⟨p, by simp [M'], rfl⟩)), ?_⟩
            intro i hi
            interval_cases i
            · exact hx1 m (by rw [hM1eq]; simp [hmD])
            · exact hb3 m hmD
            · exact le_rfl
        · rcases List.mem_cons.mp ha with rfl | ha
          · refine ⟨[cX a, cY a, cZ a], List.mem_append.mpr (Or.inl (List.mem_map.mpr ⟨a, by simp [M'], rfl⟩)), ?_⟩
            intro i hi
            interval_cases i <;> exact le_rfl
          · exact ⟨a, by simp [ha], fun _ _ => le_rfl⟩
      · intro a ha
        rcases List.mem_append.mp ha with ha | ha
        · obtain ⟨m, hm, rfl⟩ := List.mem_map.mp ha
          rcases List.mem_append.mp hm with hm | hm
          · exact ⟨_, List.mem_append.mpr (Or.inl (List.mem_map.mpr
              ⟨m, hsub.subset (List.mem_append.mpr (Or.inl hm)), rfl⟩)), fun _ _ => le_rfl⟩
          · rcases List.mem_cons.mp hm with rfl | hm
            · refine ⟨m, by simp, ?_⟩
              intro i hi
              interval_cases i <;> exact le_rfl
            · exact ⟨_, List.mem_append.mpr (Or.inl (List.mem_map.mpr
                ⟨m, hsub.subset (List.mem_append.mpr (Or.inr hm)), rfl⟩)), fun _ _ => le_rfl⟩
        · exact ⟨a, by simp [ha], fun _ _ => le_rfl⟩
    rw [hcov]
    ring

theorem hv3dFold_ok {r : List ℝ} (hl : low ≤ cX r ∧ low ≤ cY r) {V0 : ℝ} (Q : List (List ℝ)) (s : Sweep ℝ)
    (M : List (List ℝ)) (h : SweepInv low r V0 Q s M) (hp : ∀ p ∈ Q, Inside low r p)
    (hQ : Q.Pairwise (fun a b => cZ a ≤ cZ b)) :
    ∃ s' M', Q.foldlM (hv3dStep (RN low)) s = .ok s' ∧ SweepInv low r V0 [] s' M' := by
  induction Q generalizing s M with
  | nil => exact ⟨s, M, rfl, h⟩
  | cons p Q ih =>
    rw [List.pairwise_cons] at hQ
    obtain ⟨s1, M1, e1, i1⟩ := hv3dStep_ok hl h (hp p (by simp)) hQ.1
    obtain ⟨s2, M2, e2, i2⟩ := ih s1 M1 i1 (fun a ha => hp a (by simp [ha])) hQ.2
    refine ⟨s2, M2, ?_, i2⟩
    rw [List.foldlM_cons, e1]
    exact e2

theorem hv3d_ok {srt : Srt ℝ} (hsrt : ValidSort srt) {pts : List (List ℝ)} {r : List ℝ} (h : Below 3 pts r)
    (hne : pts ≠ []) (hlow : ∀ p ∈ pts, ∀ a ∈ p, low < a) :
    hv3d (RN low) srt true pts r = .ok (hvol 3 pts r) := by
  obtain ⟨hr, hp⟩ := h
  have hd : dimOk 3 pts r = true := by
    unfold dimOk
    simp only [Bool.and_eq_true, beq_iff_eq, List.all_eq_true]
    exact ⟨hr, fun p h => (hp p h).1⟩
  have hins : ∀ p ∈ pts, Inside low r p := by
    intro p hm
    obtain ⟨hlen, hle⟩ := hp p hm
    have hg : ∀ i : Nat, i < 3 → low < p.getD i 0 := by
      intro i hi
      have : p.getD i 0 = p[i]'(by omega) := by
        simp only [List.getD]; rw [List.getElem?_eq_getElem (by omega)]; rfl
      rw [this]
      exact hlow p hm _ (List.getElem_mem _)
    exact ⟨hle 0 (by omega), hle 1 (by omega), hle 2 (by omega), hg 0 (by omega), hg 1 (by omega)⟩
  unfold hv3d
  simp only [hd, Bool.not_true, Bool.false_eq_true, if_false, sortIf, if_true]
  have hswo : swoOn (fun a b : List ℝ => (RN low).lt ((RN low).at a 2) ((RN low).at b 2)) pts = true :=
    swoOn_of_key (fun a => a.getD 2 0) (fun a _ b _ => decide_eq_true_iff)
  obtain ⟨s, hs, hperm, hsorted⟩ := stdSort_sat hsrt hswo
  rw [hs]
  simp only [Outcome.bind_ok]
  have hsort : s.Pairwise (fun a b => cZ a ≤ cZ b) := hsorted.imp (fun {a b} h => not_lt.mp (of_decide_eq_false h))
  have hmem : ∀ x ∈ s, Inside low r x := fun x hx => hins x (hperm.mem_iff.mp hx)
  rw [← hvol_congr (cov_perm hperm)]
  cases s with
  | nil => exact absurd hperm.nil_eq (Ne.symm hne)
  | cons p0 ps =>
    simp only
    rw [List.pairwise_cons] at hsort
    have h0 := hmem p0 (by simp)
    have hl : low < cX r ∧ low < cY r := ⟨lt_of_lt_of_le h0.lx h0.x, lt_of_lt_of_le h0.ly h0.y⟩
    have hf1 : (RN low).lt ((RN low).at (sentA low r) 0) ((RN low).at (sentB low r) 0) = false :=
      decide_eq_false (not_lt.mpr hl.1.le)
    have hT1 : (msetSplit (RN low) (sentB low r) [sentA low r]) = ([sentA low r], []) := by
      unfold msetSplit
      rw [List.span_eq_takeWhile_dropWhile]
      simp only [List.takeWhile_cons, List.dropWhile_cons, hf1]
      simp
    have hf2 : (RN low).lt ((RN low).at (sentA low r) 0) ((RN low).at p0 0) = false :=
      decide_eq_false (not_lt.mpr h0.x)
    have hf3 : (RN low).lt ((RN low).at (sentB low r) 0) ((RN low).at p0 0) = true := decide_eq_true h0.lx
    have hT2 : (msetSplit (RN low) p0 [sentA low r, sentB low r]) = ([sentA low r], [sentB low r]) := by
      unfold msetSplit
      rw [List.span_eq_takeWhile_dropWhile]
      simp only [List.takeWhile_cons, List.dropWhile_cons, hf2, hf3]
      simp
    have eA : [(RN low).at r 0, (RN low).low, (RN low).at r 2] = sentA low r := rfl
    have eB : [(RN low).low, (RN low).at r 1, (RN low).at r 2] = sentB low r := rfl
    rw [eA, eB, hT1]
    simp only [List.singleton_append]
    rw [hT2]
    simp only [List.singleton_append]
    have hA : |(cX p0 - cX r) * (cY p0 - cY r)| = hvol 2 [p0] r := by
      rw [hvol_single_range]
      · simp only [Finset.prod_range_succ, Finset.prod_range_zero, one_mul]
        rw [show (cX p0 - cX r) * (cY p0 - cY r) = (cX r - cX p0) * (cY r - cY p0) by ring]
        exact abs_of_nonneg (mul_nonneg (sub_nonneg.mpr h0.x) (sub_nonneg.mpr h0.y))
      · intro i hi
        interval_cases i
        · exact h0.x
        · exact h0.y
    have hinv : SweepInv low r (hvol 3 (p0 :: ps) r) ps ⟨0, |(cX p0 - cX r) * (cY p0 - cY r)|, cZ p0,
        [sentA low r, p0, sentB low r]⟩ [p0] := by
      refine ⟨rfl, ?_, by simp, hA, h0.z, hsort.1, ?_⟩
      · intro p hp; rw [List.mem_singleton.mp hp]; exact h0
      · simp only [zero_add]
        apply hvol_congr
        apply Set.Subset.antisymm <;> apply cov_sub
        · intro a ha
          rcases List.mem_cons.mp ha with rfl | ha
          · refine ⟨_, List.mem_append.mpr (Or.inl (List.mem_map.mpr ⟨a, by simp, rfl⟩)), ?_⟩
            intro i hi
            interval_cases i <;> exact le_rfl
          · exact ⟨a, by simp [ha], fun _ _ => le_rfl⟩
        · intro a ha
          rcases List.mem_append.mp ha with ha | ha
          · obtain ⟨m, hm, rfl⟩ := List.mem_map.mp ha
            rw [List.mem_singleton.mp hm]
            refine ⟨p0, by simp, ?_⟩
            intro i hi
            interval_cases i <;> exact le_rfl
          · exact ⟨a, by simp [ha], fun _ _ => le_rfl⟩
    obtain ⟨s', M', e', i'⟩ := hv3dFold_ok ⟨hl.1.le, hl.2.le⟩ ps _ _ hinv (fun p hp => hmem p (by simp [hp])) hsort.2
    have e'' : ps.foldlM (hv3dStep (RN low)) ⟨(RN low).zero, (RN low).abs ((RN low).mul ((RN low).sub ((RN low).at p0 0)
        ((RN low).at r 0)) ((RN low).sub ((RN low).at p0 1) ((RN low).at r 1))), (RN low).at p0 2,
        [sentA low r, p0, sentB low r]⟩ = .ok s' := e'
    rw [e'']
    simp only [Outcome.bind_ok]
    congr 1
    change s'.V + s'.A * |s'.z3 - cZ r| = _
    rw [i'.vol, i'.area, abs_of_nonpos (sub_nonpos.mpr i'.zr), List.append_nil]
    rw [hvol_succ raise_z i'.zr, hvol_congr (cov_raise2 _ _)]
    change s'.V + hvol 2 M' r * -(s'.z3 - cZ r) = s'.V + (cZ r - s'.z3) * hvol 2 M' r
    ring

end Verif.Hv
