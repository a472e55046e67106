import Verif.Proof.HyBoxes

/-!
# One step of HyCon3D
-/

set_option autoImplicit false

namespace Verif.Hv

open Verif Verif.Spec

variable {low : ℝ}

/-- order of the tree: first coordinate decreases, second does not decrease -/
def Down (a b : Node ℝ) : Prop := cX b.1 < cX a.1 ∧ cY a.1 ≤ cY b.1

theorem getD_set {α : Type} (l : List α) (i j : Nat) (a d : α) :
    (l.set i a).getD j d = if j = i ∧ i < l.length then a else l.getD j d := by
  simp only [List.getD_eq_getElem?_getD, List.getElem?_set]
  by_cases h : i = j
  · subst h
    by_cases h2 : i < l.length <;> simp [h2]
  · have : ¬ j = i := fun e => h e.symm
    simp [h, this]

theorem get_getD {α : Type} {l : List α} {i : Nat} (d : α) (h : i < l.length) : Outcome.get l i = .ok (l.getD i d) := by
  rw [Outcome.get_of_lt h]; simp [List.getD_eq_getElem?_getD, h]

/-- The dominated neighbours. -/
theorem hyMiddle_ok {big : ℝ} {ps : List (List ℝ)} {p : List ℝ} (D : List (Node ℝ)) (xl : ℝ) (c : List ℝ)
    (L : List (List (Box3 ℝ))) (new : List (Box3 ℝ)) (yr : ℝ)
    (hps : ∀ e ∈ D, ps[e.2]? = some e.1) (hnd : (D.map (·.2)).Nodup)
    (hlen : ∀ e ∈ D, e.2 < L.length ∧ e.2 < c.length) (hgood : ∀ e ∈ D, ∀ b ∈ L.getD e.2 [], GoodBox (cZ p) b)
    (hsort : D.Pairwise Down) (hx : ∀ e ∈ D, cX e.1 < xl) (hy : ∀ e ∈ D, cY p ≤ cY e.1 ∧ cY e.1 ≤ yr)
    (hrow : RowR (cY p) (cZ p) xl new.reverse) (hnew : ∀ b ∈ new, b.ly ≤ yr ∧ ∀ e ∈ D, b.ly ≤ cY e.1) :
    ∃ c' L' new' xl', hyMiddle (RN low) big ps p (D.map (·.2)) xl c L new = .ok (c', L', new', xl') ∧
      c'.length = c.length ∧ L'.length = L.length ∧
      (∀ j ∈ D.map (·.2), L'.getD j [] = [] ∧ c'.getD j 0 = c.getD j 0 + acct (cZ p) (L.getD j [])) ∧
      (∀ j, j ∉ D.map (·.2) → L'.getD j [] = L.getD j [] ∧ c'.getD j 0 = c.getD j 0) ∧
      RowR (cY p) (cZ p) xl' new'.reverse ∧ (∀ b ∈ new', b.ly ≤ yr) ∧ acct (cZ p) new' = acct (cZ p) new ∧
      xl' ≤ xl ∧ (∀ w, w < xl → (∀ e ∈ D, w < cX e.1) → w < xl') ∧ (∀ e ∈ D, xl' ≤ cX e.1) ∧
      ∀ x y, InRow new' x y ↔ InRow new x y ∨
        (xl' ≤ x ∧ x < xl ∧ cY p ≤ y ∧ ∀ e ∈ D, ¬ (cX e.1 ≤ x ∧ cY e.1 ≤ y)) := by
  induction D generalizing xl c L new with
  | nil =>
    refine ⟨c, L, new, xl, rfl, rfl, rfl, by simp, fun _ _ => ⟨rfl, rfl⟩, hrow, fun b hb => (hnew b hb).1, rfl, le_rfl,
      fun w h _ => h, by simp, fun x y => ⟨Or.inl, ?_⟩⟩
    rintro (h | h)
    · exact h
    · exact absurd (h.1.trans_lt h.2.1) (lt_irrefl _)
  | cons q D ih =>
    rw [List.map_cons, List.nodup_cons] at hnd
    rw [List.pairwise_cons] at hsort
    have hq := hlen q (by simp)
    have hqx := hx q (by simp)
    have hqy := hy q (by simp)
    simp only [List.map_cons]
    unfold hyMiddle
    rw [get_getD [] hq.1]
    simp only [Outcome.bind_ok]
    have hclose := hyCloseAll_ok (low := low) (z := cZ p) (j := q.2) (c := c) (hgood q (by simp)) (fun _ => hq.2)
    change ∃ c' L' new' xl', (hyCloseAll (RN low) (cZ p) q.2 c (L.getD q.2 []) >>= _) = _ ∧ _
    rw [hclose]
    simp only [Outcome.bind_ok]
    rw [Outcome.set_of_lt hq.1, Outcome.bind_ok, Outcome.get_eq_ok_iff.mpr (hps q (by simp))]
    simp only [Outcome.bind_ok]
    have hne : ∀ e ∈ D, e.2 ≠ q.2 := fun e he h => hnd.1 (h ▸ List.mem_map.mpr ⟨e, he, rfl⟩)
    obtain ⟨c', L', new', xl', g1, g2, g3, g4, g5, g6, g7, g8, g9, g10, g11, g12⟩ := ih (cX q.1)
      (bump c q.2 (acct (cZ p) (L.getD q.2 []))) (L.set q.2 [])
      (new ++ [⟨xl, cY q.1, big, cX q.1, cY p, cZ p⟩])
      (fun e he => hps e (by simp [he])) hnd.2
      (fun e he => by rw [List.length_set, bump_length]; exact hlen e (by simp [he]))
      (fun e he b hb => by
        rw [getD_set, if_neg (fun h => hne e he h.1)] at hb
        exact hgood e (by simp [he]) b hb)
      hsort.2 (fun e he => (hsort.1 e he).1) (fun e he => hy e (by simp [he]))
      (by
        rw [List.reverse_append]
        exact ⟨rfl, hqx, rfl, hqy.1, le_rfl, fun b hb => (hnew b (List.mem_reverse.mp hb)).2 q (by simp), hrow⟩)
      (by
        intro b hb
        rcases List.mem_append.mp hb with hb | hb
        · exact ⟨(hnew b hb).1, fun e he => (hnew b hb).2 e (by simp [he])⟩
        · rw [List.mem_singleton.mp hb]
          exact ⟨hqy.2, fun e he => (hsort.1 e he).2⟩)
    refine ⟨c', L', new', xl', g1, by rw [g2, bump_length], by rw [g3, List.length_set], ?_, ?_, g6, g7, ?_, g9.trans hqx.le,
      fun w hw h => g10 w (h q (by simp)) (fun e he => h e (by simp [he])), ?_, ?_⟩
    · intro j hj
      by_cases hjD : j ∈ D.map (·.2)
      · have hjq : j ≠ q.2 := fun h => hnd.1 (h ▸ hjD)
        have := g4 j hjD
        rw [getD_set, if_neg (fun h => hjq h.1), bump_get, if_neg (fun h => hjq h.1)] at this
        exact this
      · have hjq : j = q.2 := by
          rcases List.mem_cons.mp hj with h | h
          · exact h
          · exact absurd h hjD
        have := g5 j hjD
        rw [getD_set, if_pos ⟨hjq, hq.1⟩, bump_get, if_pos ⟨hjq, hq.2⟩] at this
        rw [this.1, this.2, hjq]
        exact ⟨rfl, rfl⟩
    · intro j hj
      rw [List.mem_cons, not_or] at hj
      have := g5 j hj.2
      rw [getD_set, if_neg (fun h => hj.1 h.1), bump_get, if_neg (fun h => hj.1 h.1)] at this
      exact this
    · rw [g8, acct_append]
      change _ + ((xl - cX q.1) * (cY q.1 - cY p) * (cZ p - cZ p) + 0) = _
      ring
    · intro e he
      rcases List.mem_cons.mp he with rfl | he
      · exact g9
      · exact g11 e he
    · intro x y
      rw [g12, inRow_append, inRow_cons]
      change ((_ ∨ (cX q.1 ≤ x ∧ x < xl ∧ cY p ≤ y ∧ y < cY q.1) ∨ _) ∨ _) ↔ _
      constructor
      · rintro ((h | h | h) | h)
        · exact Or.inl h
        · refine Or.inr ⟨g9.trans h.1, h.2.1, h.2.2.1, ?_⟩
          intro e he hc
          rcases List.mem_cons.mp he with rfl | he
          · exact absurd (h.2.2.2.trans_le hc.2) (lt_irrefl _)
          · exact absurd (h.2.2.2.trans_le ((hsort.1 e he).2.trans hc.2)) (lt_irrefl _)
        · exact absurd h (inRow_nil _ _)
        · refine Or.inr ⟨h.1, h.2.1.trans hqx, h.2.2.1, ?_⟩
          intro e he hc
          rcases List.mem_cons.mp he with rfl | he
          · exact absurd (h.2.1.trans_le hc.1) (lt_irrefl _)
          · exact h.2.2.2 e he hc
      · rintro (h | h)
        · exact Or.inl (Or.inl h)
        · by_cases hxq : cX q.1 ≤ x
          · refine Or.inl (Or.inr (Or.inl ⟨hxq, h.2.1, h.2.2.1, ?_⟩))
            by_contra hc
            exact h.2.2.2 q (by simp) ⟨hxq, not_lt.mp hc⟩
          · exact Or.inr ⟨h.1, not_le.mp hxq, h.2.2.1, fun e he => h.2.2.2 e (by simp [he])⟩

/-- first sentinel -/
def senX (low : ℝ) (r : List ℝ) : List ℝ := [cX r, low, low]
/-- second sentinel -/
def senY (low : ℝ) (r : List ℝ) : List ℝ := [low, cY r, low]
/-- third sentinel -/
def senZ (low : ℝ) (r : List ℝ) : List ℝ := [low, low, cZ r]

theorem hyBack_ok {p : List ℝ} {e : Node ℝ} (he : cY e.1 ≤ cY p) (rest Mr : List (Node ℝ)) :
    ∃ D X t ts, hyBack (RN low) p (Mr ++ e :: rest) = .ok (D.map (·.2), X ++ e :: rest) ∧ Mr = D ++ X ∧
      (∀ m ∈ D, cY p < cY m.1) ∧ X ++ [e] = t :: ts ∧ cY t.1 ≤ cY p := by
  induction Mr with
  | nil =>
    refine ⟨[], [], e, [], ?_, rfl, by simp, rfl, he⟩
    simp only [List.nil_append]
    unfold hyBack
    have : (RN low).lt ((RN low).at p 1) ((RN low).at e.1 1) = false := decide_eq_false (not_lt.mpr he)
    rw [this]
    simp
  | cons m Mr ih =>
    rw [List.cons_append]
    unfold hyBack
    by_cases hm : cY p < cY m.1
    · have : (RN low).lt ((RN low).at p 1) ((RN low).at m.1 1) = true := decide_eq_true hm
      rw [this, if_pos rfl]
      obtain ⟨D, X, t, ts, g1, g2, g3, g4, g5⟩ := ih
      rw [g1]
      simp only [Outcome.bind_ok]
      refine ⟨m :: D, X, t, ts, rfl, by rw [g2]; rfl, ?_, g4, g5⟩
      intro a ha
      rcases List.mem_cons.mp ha with rfl | ha
      · exact hm
      · exact g3 a ha
    · have : (RN low).lt ((RN low).at p 1) ((RN low).at m.1 1) = false := decide_eq_false hm
      rw [this]
      simp only [Bool.false_eq_true, if_false]
      exact ⟨[], m :: Mr, m, Mr ++ [e], rfl, rfl, by simp, rfl, not_lt.mp hm⟩

/-- splitting a list sorted downwards at a value none of its elements has -/
theorem span_down {w : ℝ} (M : List (Node ℝ)) (hs : M.Pairwise Down) (hne : ∀ e ∈ M, cX e.1 ≠ w)
    (f : Node ℝ → Bool) (hf : ∀ e, cX e.1 ≠ w → (f e = true ↔ w < cX e.1)) :
    ∃ M1 M2, M = M1 ++ M2 ∧ (∀ m ∈ M1, w < cX m.1) ∧ (∀ m ∈ M2, cX m.1 < w) ∧
      ∀ pre rest, (∀ e ∈ pre, f e = true) → (∀ e ∈ rest, f e = false) →
        (pre ++ M ++ rest).span f = (pre ++ M1, M2 ++ rest) := by
  refine ⟨M.takeWhile f, M.dropWhile f, List.takeWhile_append_dropWhile.symm, ?_, ?_, ?_⟩
  · intro m hm
    have h1 := List.all_eq_true.mp (List.all_takeWhile (l := M)) m hm
    have h2 : m ∈ M := (List.takeWhile_sublist f).subset hm
    exact (hf m (hne m h2)).mp h1
  · induction M with
    | nil => simp
    | cons a M ih =>
      rw [List.pairwise_cons] at hs
      have ha := hne a (by simp)
      by_cases h : f a = true
      · rw [List.dropWhile_cons_of_pos h]
        exact ih hs.2 (fun e he => hne e (by simp [he]))
      · rw [List.dropWhile_cons_of_neg h]
        have haw : cX a.1 < w := by
          rcases lt_or_gt_of_ne ha with h1 | h1
          · exact h1
          · exact absurd ((hf a ha).mpr h1) h
        intro m hm
        rcases List.mem_cons.mp hm with rfl | hm
        · exact haw
        · exact (hs.1 m hm).1.trans haw
  · intro pre rest hpre hrest
    rw [List.span_eq_takeWhile_dropWhile, List.append_assoc]
    have hr : rest.takeWhile f = [] ∧ rest.dropWhile f = rest := by
      cases rest with
      | nil => simp
      | cons a l => simp [hrest a (by simp)]
    have hMr : (M ++ rest).takeWhile f = M.takeWhile f ∧ (M ++ rest).dropWhile f = M.dropWhile f ++ rest := by
      clear hs hne
      induction M with
      | nil => simp [hr.1, hr.2]
      | cons a M ih =>
        by_cases h : f a = true
        · simp [h, ih.1, ih.2]
        · simp [h]
    induction pre with
    | nil => simp [hMr.1, hMr.2]
    | cons a pre ih =>
      have ha := hpre a (by simp)
      have ih := ih (fun e he => hpre e (by simp [he]))
      simp only [Prod.mk.injEq] at ih
      simp [ha, ih.1, ih.2]

/-- What the step needs to know of the state. -/
structure HySt (low : ℝ) (r : List ℝ) (n : Nat) (ps : List (List ℝ)) (z : ℝ) (s : HyState ℝ) (pre M : List (Node ℝ)) :
    Prop where
  T : s.T = (pre ++ [(senX low r, n + 1)]) ++ M ++ [(senY low r, n + 2)]
  hpre : ∀ e ∈ pre, cX e.1 = cX r
  idx : ∀ e ∈ M, e.2 < n ∧ ps[e.2]? = some e.1
  nodup : (M.map (·.2)).Nodup
  sorted : M.Pairwise Down
  bd : ∀ e ∈ M, low < cX e.1 ∧ low < cY e.1 ∧ cX e.1 < cX r ∧ cY e.1 ≤ cY r
  lenL : s.L.length = n + 3
  lenC : s.c.length = n
  row : ∀ e ∈ M, RowR (cY e.1) z (cX e.1) (s.L.getD e.2 []).reverse
  excl : ∀ e ∈ M, ∀ x y, InRow (s.L.getD e.2 []) x y →
    cX e.1 ≤ x ∧ cY e.1 ≤ y ∧ ∀ e' ∈ M, e'.2 ≠ e.2 → ¬ (cX e'.1 ≤ x ∧ cY e'.1 ≤ y)
  sent : s.L.getD (n + 1) [] = [] ∧ s.L.getD (n + 2) [] = []

/-- What the step does if the new point is not dominated in the plane. -/
structure HyNext (low : ℝ) (r : List ℝ) (n : Nat) (p : List ℝ) (k : Nat) (s s' : HyState ℝ)
    (pre X D M2 : List (Node ℝ)) : Prop where
  px : cX p < cX r
  py : cY p < cY r
  T : s'.T = hyInsert (RN low) (p, k) ((pre ++ [(senX low r, n + 1)]) ++ (X ++ M2) ++ [(senY low r, n + 2)])
  onX : ∀ e ∈ X, cX p < cX e.1 ∧ cY e.1 ≤ cY p
  onD : ∀ e ∈ D, cX p < cX e.1 ∧ cY p < cY e.1
  onM : ∀ e ∈ M2, cX e.1 < cX p ∧ cY p < cY e.1
  lenL : s'.L.length = n + 3
  lenC : s'.c.length = n
  kept : ∀ e ∈ X ++ M2, RowR (cY e.1) (cZ p) (cX e.1) (s'.L.getD e.2 []).reverse ∧
    ∀ x y, InRow (s'.L.getD e.2 []) x y ↔ InRow (s.L.getD e.2 []) x y ∧ ¬ (cX p ≤ x ∧ cY p ≤ y)
  gone : ∀ e ∈ D, s'.L.getD e.2 [] = []
  same : ∀ j, j ∉ (X ++ D ++ M2).map (·.2) → j ≠ k → s'.L.getD j [] = s.L.getD j []
  new : RowR (cY p) (cZ p) (cX p) (s'.L.getD k []).reverse ∧ acct (cZ p) (s'.L.getD k []) = 0 ∧
    ∀ x y, InRow (s'.L.getD k []) x y ↔ (cX p ≤ x ∧ x < cX r ∧ cY p ≤ y ∧ y < cY r ∧
      ∀ e ∈ X ++ D ++ M2, ¬ (cX e.1 ≤ x ∧ cY e.1 ≤ y))
  book : ∀ j, j < n → j ≠ k →
    s'.c.getD j 0 + acct (cZ p) (s'.L.getD j []) = s.c.getD j 0 + acct (cZ p) (s.L.getD j [])
  bookk : s'.c.getD k 0 = s.c.getD k 0

set_option maxHeartbeats 2000000 in
theorem hyStep_ok {big : ℝ} {r : List ℝ} {n : Nat} {ps : List (List ℝ)} {z : ℝ} {s : HyState ℝ} {pre M : List (Node ℝ)}
    (h : HySt low r n ps z s pre M) {p : List ℝ} {k : Nat} (hk : k ≤ n) (hpk : ps[k]? = some p)
    (hX : ps[n + 1]? = some (senX low r)) (hY : ps[n + 2]? = some (senY low r))
    (hkM : k ∉ M.map (·.2)) (hLk : s.L.getD k [] = []) (hx : low ≤ cX p) (hy : low ≤ cY p) (hxr : cX p ≤ cX r)
    (hz : z ≤ cZ p) (hne : ∀ e ∈ pre ++ M, cX e.1 ≠ cX p) (hl : low < cX r ∧ low < cY r) :
    hyStep (RN low) big ps k s = .ok none ∨
    ∃ s' X D M2, hyStep (RN low) big ps k s = .ok (some s') ∧ M = X ++ D ++ M2 ∧
      HyNext low r n p k s s' pre X D M2 := by
  let f : Node ℝ → Bool := fun e => (RN low).lt ((RN low).at p 0) ((RN low).at e.1 0)
  have hf : ∀ e, f e = true ↔ cX p < cX e.1 := fun e => decide_eq_true_iff
  have hf' : ∀ e, f e = false ↔ cX e.1 ≤ cX p := fun e => decide_eq_false_iff_not.trans not_lt
  have hlr : hyLower (RN low) p s.T = s.T.span f := rfl
  unfold hyStep
  rw [Outcome.get_eq_ok_iff.mpr hpk]
  simp only [Outcome.bind_ok, hlr]
  rcases hxr.lt_or_eq with hpx | hpx
  swap
  · -- the point is on the border
    left
    have hpre : pre = [] := by
      cases pre with
      | nil => rfl
      | cons e l => exact absurd ((h.hpre e (by simp)).trans hpx.symm) (hne e (by simp))
    have : s.T.span f = ([], s.T) := by
      rw [h.T, hpre, List.span_eq_takeWhile_dropWhile]
      have : f (senX low r, n + 1) = false := (hf' _).mpr hpx.ge
      simp [this]
    simp only [this]
    rw [h.T, hpre]
    simp only [List.nil_append, List.cons_append]
    have : (RN low).le ((RN low).at (senX low r) 1) ((RN low).at p 1) = true := decide_eq_true hy
    rw [this]
    rfl
  obtain ⟨M1, M2, hM, hM1, hM2, hspan⟩ := span_down (w := cX p) M h.sorted
    (fun e he => hne e (List.mem_append_right _ he)) f (fun e _ => hf e)
  have hsp : s.T.span f = ((pre ++ [(senX low r, n + 1)]) ++ M1, M2 ++ [(senY low r, n + 2)]) := by
    rw [h.T]
    refine hspan _ _ ?_ ?_
    · intro e he
      rw [hf]
      rcases List.mem_append.mp he with he | he
      · rw [h.hpre e he]; exact hpx
      · rw [List.mem_singleton.mp he]; exact hpx
    · intro e he
      rw [hf', List.mem_singleton.mp he]; exact hx
  obtain ⟨it, its, hit⟩ : ∃ it its, M2 ++ [(senY low r, n + 2)] = it :: its := by
    cases M2 with
    | nil => exact ⟨_, [], rfl⟩
    | cons w W => exact ⟨w, W ++ [(senY low r, n + 2)], rfl⟩
  simp only [hsp, hit]
  by_cases hdom : cY it.1 ≤ cY p
  · left
    have : (RN low).le ((RN low).at it.1 1) ((RN low).at p 1) = true := decide_eq_true hdom
    rw [this]
    rfl
  right
  have hle : (RN low).le ((RN low).at it.1 1) ((RN low).at p 1) = false := decide_eq_false hdom
  have hpit : cY p < cY it.1 := not_le.mp hdom
  rw [hle]
  simp only [Bool.false_eq_true, if_false]
  obtain ⟨Dr, Xr, tn, ts, hb1, hb2, hb3, hb4, hb5⟩ := hyBack_ok (low := low) (p := p) (e := (senX low r, n + 1))
    (show cY (senX low r) ≤ cY p from hy) pre.reverse M1.reverse
  have hrev : (pre ++ [(senX low r, n + 1)] ++ M1).reverse = M1.reverse ++ (senX low r, n + 1) :: pre.reverse := by simp
  have hXtn : Xr ++ (senX low r, n + 1) :: pre.reverse = tn :: (ts ++ pre.reverse) := by
    rw [show Xr ++ (senX low r, n + 1) :: pre.reverse = (Xr ++ [(senX low r, n + 1)]) ++ pre.reverse by simp, hb4]; rfl
  rw [hrev, hb1]
  simp only [Outcome.bind_ok, hXtn]
  -- names in tree order
  have hM1eq : M1 = Xr.reverse ++ Dr.reverse := by
    have := congrArg List.reverse hb2
    simpa using this
  obtain ⟨X, hXr⟩ : ∃ X, X = Xr.reverse := ⟨_, rfl⟩
  obtain ⟨D, hDr⟩ : ∃ D, D = Dr.reverse := ⟨_, rfl⟩
  rw [← hXr, ← hDr] at hM1eq
  have hMeq : M = X ++ D ++ M2 := by rw [hM, hM1eq]
  have hjs : (Dr.map (·.2)).reverse = D.map (·.2) := by rw [hDr, List.map_reverse]
  rw [hjs]
  have hsort := h.sorted
  rw [hMeq, List.pairwise_append, List.pairwise_append] at hsort
  obtain ⟨⟨hsX, hsD, hsXD⟩, hsM2, hsXDM⟩ := hsort
  have hnd := h.nodup
  rw [hMeq] at hnd
  have hinM : ∀ e, e ∈ X ∨ e ∈ D ∨ e ∈ M2 → e ∈ M := by
    intro e he
    rw [hMeq]
    simp only [List.mem_append]
    tauto
  have uniq : ∀ a ∈ M, ∀ b ∈ M, a.2 = b.2 → a = b := by
    intro a ha b hb e
    have h1 := (h.idx a ha).2
    rw [e, (h.idx b hb).2] at h1
    exact Prod.ext (Option.some.inj h1).symm e
  -- facts on the dominated points
  have onD : ∀ e ∈ D, cX p < cX e.1 ∧ cY p < cY e.1 := by
    intro e he
    refine ⟨hM1 e (by rw [hM1eq]; simp [he]), hb3 e ?_⟩
    rw [hDr] at he
    exact List.mem_reverse.mp he
  -- facts on the left neighbour
  have htn : tn ∈ X ∨ (X = [] ∧ tn = (senX low r, n + 1)) := by
    cases hXr' : Xr with
    | nil =>
      rw [hXr'] at hb4
      simp only [List.nil_append, List.cons.injEq] at hb4
      exact Or.inr ⟨by rw [hXr, hXr']; rfl, hb4.1.symm⟩
    | cons a l =>
      rw [hXr'] at hb4
      simp only [List.cons_append, List.cons.injEq] at hb4
      exact Or.inl (by rw [hXr, hXr', ← hb4.1]; simp)
  have hXt : ∀ e ∈ X, e = tn ∨ Down e tn := by
    intro e he
    cases hXr' : Xr with
    | nil => rw [hXr, hXr'] at he; simp at he
    | cons a l =>
      rw [hXr'] at hb4
      simp only [List.cons_append, List.cons.injEq] at hb4
      rw [hXr, hXr', List.reverse_cons] at he hsX
      rw [List.pairwise_append] at hsX
      rcases List.mem_append.mp he with he | he
      · right; rw [← hb4.1]; exact hsX.2.2 e he a (by simp)
      · left; rw [List.mem_singleton.mp he, hb4.1]
  have tx : cX p < cX tn.1 ∧ cX tn.1 ≤ cX r := by
    rcases htn with ht | ⟨-, ht⟩
    · exact ⟨hM1 tn (by rw [hM1eq]; simp [ht]), (h.bd tn (hinM tn (Or.inl ht))).2.2.1.le⟩
    · rw [ht]; exact ⟨hpx, le_rfl⟩
  have hXx : ∀ e ∈ X, cX tn.1 ≤ cX e.1 := by
    intro e he
    rcases hXt e he with rfl | he
    · exact le_rfl
    · exact he.1.le
  have onX : ∀ e ∈ X, cX p < cX e.1 ∧ cY e.1 ≤ cY p := by
    intro e he
    refine ⟨tx.1.trans_le (hXx e he), ?_⟩
    rcases hXt e he with rfl | he
    · exact hb5
    · exact he.2.trans hb5
  -- facts on the right neighbour
  have hitm : it ∈ M2 ∨ (M2 = [] ∧ it = (senY low r, n + 2)) := by
    cases hM2' : M2 with
    | nil =>
      rw [hM2'] at hit
      simp only [List.nil_append, List.cons.injEq] at hit
      exact Or.inr ⟨rfl, hit.1.symm⟩
    | cons a l =>
      rw [hM2'] at hit
      simp only [List.cons_append, List.cons.injEq] at hit
      exact Or.inl (by rw [← hit.1]; simp)
  have hMit : ∀ e ∈ M2, e = it ∨ Down it e := by
    intro e he
    cases hM2' : M2 with
    | nil => rw [hM2'] at he; simp at he
    | cons a l =>
      rw [hM2'] at hit he hsM2
      simp only [List.cons_append, List.cons.injEq] at hit
      rw [List.pairwise_cons] at hsM2
      rcases List.mem_cons.mp he with he | he
      · left; rw [he, hit.1]
      · right; rw [← hit.1]; exact hsM2.1 e he
  have hMy : ∀ e ∈ M2, cY it.1 ≤ cY e.1 := by
    intro e he
    rcases hMit e he with rfl | he
    · exact le_rfl
    · exact he.2
  have hity : cY it.1 ≤ cY r := by
    rcases hitm with hi | ⟨-, hi⟩
    · exact (h.bd it (hinM it (Or.inr (Or.inr hi)))).2.2.2
    · rw [hi]; exact le_rfl
  have hpy : cY p < cY r := hpit.trans_le hity
  have onM : ∀ e ∈ M2, cX e.1 < cX p ∧ cY p < cY e.1 := fun e he => ⟨hM2 e he, hpit.trans_le (hMy e he)⟩
  -- facts on the indices
  have hDn : ∀ j, n < j → j ∉ D.map (·.2) := by
    intro j hj hm
    obtain ⟨e, he, rfl⟩ := List.mem_map.mp hm
    have := (h.idx e (hinM e (Or.inr (Or.inl he)))).1
    omega
  have notD : ∀ e, e ∈ X ∨ e ∈ M2 → e.2 ∉ D.map (·.2) := by
    intro e he hm
    obtain ⟨e', he', heq⟩ := List.mem_map.mp hm
    have := uniq e' (hinM e' (Or.inr (Or.inl he'))) e (hinM e (by tauto)) heq
    subst this
    rcases he with he | he
    · exact absurd (onX e' he).2 (not_le.mpr (onD e' he').2)
    · exact absurd (onM e' he).1 (not_lt.mpr (onD e' he').1.le)
  have hkne : ∀ e ∈ M, e.2 ≠ k := fun e he heq => hkM (heq ▸ List.mem_map.mpr ⟨e, he, rfl⟩)
  have nodeIt : it.2 < n + 3 ∧ ps[it.2]? = some it.1 ∧ RowR (cY it.1) (cZ p) (cX it.1) (s.L.getD it.2 []).reverse ∧
      (s.L.getD it.2 [] ≠ [] → it.2 < n) ∧ it.2 ∉ D.map (·.2) ∧ it.2 ≠ k := by
    rcases hitm with hi | ⟨-, hi⟩
    · have hm := hinM it (Or.inr (Or.inr hi))
      have := (h.idx it hm)
      exact ⟨by omega, this.2, (h.row it hm).mono hz, fun _ => this.1, notD it (Or.inr hi), hkne it hm⟩
    · rw [hi]
      refine ⟨by simp, hY, ?_, fun hc => absurd h.sent.2 hc, hDn _ (by simp), by simp only; omega⟩
      rw [h.sent.2]; trivial
  have nodeT : tn.2 < n + 3 ∧ ps[tn.2]? = some tn.1 ∧ RowR (cY tn.1) (cZ p) (cX tn.1) (s.L.getD tn.2 []).reverse ∧
      (s.L.getD tn.2 [] ≠ [] → tn.2 < n) ∧ tn.2 ∉ D.map (·.2) ∧ tn.2 ≠ k := by
    rcases htn with hi | ⟨-, hi⟩
    · have hm := hinM tn (Or.inl hi)
      have := (h.idx tn hm)
      exact ⟨by omega, this.2, (h.row tn hm).mono hz, fun _ => this.1, notD tn (Or.inl hi), hkne tn hm⟩
    · rw [hi]
      refine ⟨by simp, hX, ?_, fun hc => absurd h.sent.1 hc, hDn _ (by simp), by simp only; omega⟩
      rw [h.sent.1]; trivial
  have hti : tn.2 ≠ it.2 := by
    intro heq
    rcases htn with h1 | ⟨-, h1⟩ <;> rcases hitm with h2 | ⟨-, h2⟩
    · have := uniq tn (hinM tn (Or.inl h1)) it (hinM it (Or.inr (Or.inr h2))) heq
      rw [this] at tx
      exact absurd tx.1 (not_lt.mpr (onM it h2).1.le)
    · have := (h.idx tn (hinM tn (Or.inl h1))).1
      rw [heq, h2] at this
      simp only at this; omega
    · have := (h.idx it (hinM it (Or.inr (Or.inr h2)))).1
      rw [← heq, h1] at this
      simp only at this; omega
    · rw [h1, h2] at heq
      simp at heq
  obtain ⟨ni1, ni2, ni3, ni4, ni5, ni6⟩ := nodeIt
  obtain ⟨nt1, nt2, nt3, nt4, nt5, nt6⟩ := nodeT
  -- the right neighbour
  obtain ⟨δr, Lr', r1, r2, r3, r4, r5⟩ := hyRight_ok (low := low) (big := big) (p := p) (j := it.2) (c := s.c) ni3
    (fun hc => by rw [h.lenC]; exact ni4 hc)
  rw [get_getD [] (by rw [h.lenL]; exact ni1)]
  simp only [Outcome.bind_ok, r1]
  rw [Outcome.set_of_lt (by rw [h.lenL]; exact ni1)]
  simp only [Outcome.bind_ok]
  rw [Outcome.get_eq_ok_iff.mpr nt2, Outcome.get_eq_ok_iff.mpr ni2]
  simp only [Outcome.bind_ok]
  rw [get_getD [] (by rw [List.length_set, h.lenL]; omega), getD_set, if_neg (fun hc => ni6 hc.1.symm), hLk]
  simp only [Outcome.bind_ok]
  -- the dominated points
  have hDm : ∀ e ∈ D, e ∈ M := fun e he => hinM e (Or.inr (Or.inl he))
  have hDne : ∀ e ∈ D, e.2 ≠ it.2 := fun e he heq => ni5 (heq ▸ List.mem_map.mpr ⟨e, he, rfl⟩)
  have hDnd : (D.map (·.2)).Nodup := by
    rw [List.map_append, List.map_append] at hnd
    exact (List.nodup_append.mp (List.nodup_append.mp hnd).1).2.1
  have hDt : ∀ e ∈ D, cX e.1 < cX tn.1 := by
    intro e he
    rcases htn with ht | ⟨-, ht⟩
    · exact (hsXD tn ht e he).1
    · rw [ht]; exact (h.bd e (hDm e he)).2.2.1
  have hDit : ∀ e ∈ D, cY e.1 ≤ cY it.1 := by
    intro e he
    rcases hitm with ht | ⟨-, ht⟩
    · exact (hsXDM e (by simp [he]) it ht).2
    · rw [ht]; exact (h.bd e (hDm e he)).2.2.2
  obtain ⟨c2, L2, new, xl, m1, m2, m3, m4, m5, m6, m7, m8, m9, m10, m11, m12⟩ := hyMiddle_ok (low := low) (big := big)
    (ps := ps) (p := p) D (cX tn.1) (bump s.c it.2 δr) (s.L.set it.2 Lr') [] (cY it.1) (fun e he => (h.idx e (hDm e he)).2)
    hDnd (fun e he => by
      have := (h.idx e (hDm e he)).1
      rw [List.length_set, bump_length, h.lenL, h.lenC]
      omega)
    (fun e he b hb => by
      rw [getD_set, if_neg (fun hc => hDne e he hc.1)] at hb
      exact ((h.row e (hDm e he)).mono hz).good b (List.mem_reverse.mpr hb))
    hsD hDt (fun e he => ⟨(onD e he).2.le, hDit e he⟩) trivial (by simp)
  change ∃ s' X' D' M2', (hyMiddle (RN low) big ps p (D.map (·.2)) (cX tn.1) (bump s.c it.2 δr) (s.L.set it.2 Lr') [] >>= _) = _ ∧ _
  rw [m1]
  simp only [Outcome.bind_ok]
  have hL2 : L2.length = n + 3 := by rw [m3, List.length_set, h.lenL]
  rw [Outcome.set_of_lt (by omega)]
  simp only [Outcome.bind_ok]
  have hL2t : L2.getD tn.2 [] = s.L.getD tn.2 [] := by
    rw [(m5 tn.2 nt5).1, getD_set, if_neg (fun hc => hti hc.1)]
  rw [get_getD [] (by rw [List.length_set]; omega), getD_set, if_neg (fun hc => nt6 hc.1), hL2t]
  simp only [Outcome.bind_ok]
  -- the left neighbour
  have hc2 : c2.length = n := by rw [m2, bump_length, h.lenC]
  obtain ⟨δt, a', bs', out, l1, l2, l3, l4, l5, l6⟩ := hyLeft_push (low := low) (big := big) (p := p) (pt := tn.1)
    (j := tn.2) (c := c2) nt3 (fun hc => by rw [hc2]; exact nt4 hc) hb5
  change ∃ s' X' D' M2', (hyLeft (RN low) p tn.2 (cX tn.1) c2 (s.L.getD tn.2 []).reverse >>= _) = _ ∧ _
  rw [l1]
  simp only [Outcome.bind_ok, ← l2]
  rw [Outcome.set_of_lt (by rw [List.length_set]; omega)]
  simp only [Outcome.bind_ok]
  refine ⟨_, X, D, M2, rfl, hMeq, ?_⟩
  -- the lists after the step
  have fL : ∀ (j : Nat) (w : List (Box3 ℝ)), ((L2.set k w).set tn.2 out).getD j [] =
      if j = tn.2 then out else if j = k then w else if j = it.2 then Lr' else
        if j ∈ D.map (·.2) then [] else s.L.getD j [] := by
    intro j w
    rw [getD_set, getD_set, List.length_set, hL2]
    by_cases h1 : j = tn.2
    · rw [if_pos ⟨h1, nt1⟩, if_pos h1]
    · rw [if_neg (fun hc => h1 hc.1), if_neg h1]
      by_cases h2 : j = k
      · rw [if_pos ⟨h2, by omega⟩, if_pos h2]
      · rw [if_neg (fun hc => h2 hc.1), if_neg h2]
        by_cases h3 : j = it.2
        · rw [if_pos h3, h3, (m5 it.2 ni5).1, getD_set, if_pos ⟨rfl, by rw [h.lenL]; exact ni1⟩]
        · rw [if_neg h3]
          by_cases h4 : j ∈ D.map (·.2)
          · rw [if_pos h4, (m4 j h4).1]
          · rw [if_neg h4, (m5 j h4).1, getD_set, if_neg (fun hc => h3 hc.1)]
  refine ⟨hpx, hpy, ?_, onX, onD, onM, ?_, ?_, ?_, ?_, ?_, ?_, ?_, ?_⟩
  · -- the tree
    change hyInsert (RN low) (p, k) ((tn :: (ts ++ pre.reverse)).reverse ++ it :: its) = _
    rw [← hit, ← hXtn, hXr]
    congr 1
    simp
  · change ((L2.set k _).set tn.2 out).length = _
    simp [hL2]
  · change (bump c2 tn.2 δt).length = _
    rw [bump_length, hc2]
  · -- the points that stay
    intro e he
    change RowR _ _ _ (((L2.set k _).set tn.2 out).getD e.2 []).reverse ∧ ∀ x y, InRow (((L2.set k _).set tn.2 out).getD e.2 []) x y ↔ _
    rw [fL]
    have heM : e ∈ M := by
      rcases List.mem_append.mp he with he | he
      · exact hinM e (Or.inl he)
      · exact hinM e (Or.inr (Or.inr he))
    have hed : e.2 ∉ D.map (·.2) := notD e (List.mem_append.mp he)
    have hek := hkne e heM
    by_cases h1 : e.2 = tn.2
    · rw [if_pos h1]
      have het : e = tn := by
        rcases htn with ht | ⟨-, ht⟩
        · exact uniq e heM tn (hinM tn (Or.inl ht)) h1
        · have := (h.idx e heM).1
          rw [h1, ht] at this
          simp only at this; omega
      subst het
      refine ⟨l4, fun x y => ?_⟩
      rw [l5]
      refine and_congr_right fun hr => ?_
      have := (h.excl e heM x y hr).1
      have : cX p ≤ x := tx.1.le.trans this
      exact ⟨fun hy' hc => absurd (hy'.trans_le hc.2) (lt_irrefl _), fun hc => by
        by_contra hcon; exact hc ⟨this, not_lt.mp hcon⟩⟩
    · rw [if_neg h1, if_neg hek]
      by_cases h2 : e.2 = it.2
      · rw [if_pos h2]
        have hei : e = it := by
          rcases hitm with ht | ⟨-, ht⟩
          · exact uniq e heM it (hinM it (Or.inr (Or.inr ht))) h2
          · have := (h.idx e heM).1
            rw [h2, ht] at this
            simp only at this; omega
        subst hei
        refine ⟨r3, fun x y => ?_⟩
        rw [r4]
        refine and_congr_right fun hr => ?_
        have := (h.excl e heM x y hr).2.1
        have : cY p ≤ y := hpit.le.trans this
        exact ⟨fun hx' hc => absurd (hx'.trans_le hc.1) (lt_irrefl _), fun hc => by
          by_contra hcon; exact hc ⟨not_lt.mp hcon, this⟩⟩
      · rw [if_neg h2, if_neg hed]
        refine ⟨(h.row e heM).mono hz, fun x y => ⟨fun hr => ⟨hr, ?_⟩, fun hr => hr.1⟩⟩
        have hex := h.excl e heM x y hr
        rintro ⟨hpx', hpy'⟩
        rcases List.mem_append.mp he with he | he
        · rcases htn with ht | ⟨ht, -⟩
          · rcases hXt e he with h3 | h3
            · exact h1 (by rw [h3])
            · exact hex.2.2 tn (hinM tn (Or.inl ht)) (fun hc => h1 hc.symm) ⟨h3.1.le.trans hex.1, hb5.trans hpy'⟩
          · rw [ht] at he; simp at he
        · rcases hitm with ht | ⟨ht, -⟩
          · rcases hMit e he with h3 | h3
            · exact h2 (by rw [h3])
            · exact hex.2.2 it (hinM it (Or.inr (Or.inr ht))) (fun hc => h2 hc.symm)
                ⟨(onM it ht).1.le.trans hpx', h3.2.trans hex.2.1⟩
          · rw [ht] at he; simp at he
  · -- the dominated points
    intro e he
    change ((L2.set k _).set tn.2 out).getD e.2 [] = _
    have hm : e.2 ∈ D.map (·.2) := List.mem_map.mpr ⟨e, he, rfl⟩
    rw [fL, if_neg (fun hc : e.2 = tn.2 => nt5 (hc ▸ hm)), if_neg (hkne e (hDm e he)), if_neg (hDne e he), if_pos hm]
  · -- the others
    intro j hj hjk
    change ((L2.set k _).set tn.2 out).getD j [] = _
    rw [fL]
    have hjD : j ∉ D.map (·.2) := fun hc => hj (by simp only [List.map_append, List.mem_append]; tauto)
    by_cases h1 : j = tn.2
    · rw [if_pos h1]
      rcases htn with ht | ⟨-, ht⟩
      · exact absurd (List.mem_map.mpr ⟨tn, by simp [ht], h1.symm⟩) hj
      · have : s.L.getD tn.2 [] = [] := by rw [ht]; exact h.sent.1
        rw [l6 this, h1, this]
    · rw [if_neg h1, if_neg hjk]
      by_cases h2 : j = it.2
      · rw [if_pos h2]
        rcases hitm with ht | ⟨-, ht⟩
        · exact absurd (List.mem_map.mpr ⟨it, by simp [ht], h2.symm⟩) hj
        · have : s.L.getD it.2 [] = [] := by rw [ht]; exact h.sent.2
          rw [r5 this, h2, this]
      · rw [if_neg h2, if_neg hjD]
  · -- the new point
    change RowR _ _ _ (((L2.set k _).set tn.2 out).getD k []).reverse ∧ acct _ (((L2.set k _).set tn.2 out).getD k []) = 0 ∧
      ∀ x y, InRow (((L2.set k _).set tn.2 out).getD k []) x y ↔ _
    rw [fL, if_neg (fun hc => nt6 hc.symm), if_pos rfl]
    have hpxl : cX p < xl := m10 (cX p) tx.1 (fun e he => (onD e he).1)
    refine ⟨?_, ?_, ?_⟩
    · rw [List.reverse_append]
      exact ⟨rfl, hpxl, rfl, hpit.le, le_rfl, fun b hb => m7 b (List.mem_reverse.mp hb), m6⟩
    · rw [acct_append, m8]
      change 0 + ((xl - cX p) * (cY it.1 - cY p) * (cZ p - cZ p) + 0) = 0
      ring
    · intro x y
      rw [inRow_append, m12, inRow_cons]
      change ((InRow [] x y ∨ _) ∨ (cX p ≤ x ∧ x < xl ∧ cY p ≤ y ∧ y < cY it.1) ∨ InRow [] x y) ↔ _
      constructor
      · rintro ((hc | hc) | hc | hc)
        · exact absurd hc (inRow_nil _ _)
        · obtain ⟨h1, h2, h3, h4⟩ := hc
          obtain ⟨e0, he0, he0x⟩ : ∃ e ∈ D, cX e.1 ≤ x := by
            by_contra hcon
            push Not at hcon
            exact absurd h1 (not_le.mpr (m10 x h2 hcon))
          have hy0 : y < cY e0.1 := by
            by_contra hcon
            exact h4 e0 he0 ⟨he0x, not_lt.mp hcon⟩
          refine ⟨hpxl.le.trans h1, h2.trans_le tx.2, h3, hy0.trans_le ((hDit e0 he0).trans hity), ?_⟩
          intro e he hq
          rcases List.mem_append.mp he with he | he
          · rcases List.mem_append.mp he with he | he
            · exact absurd (h2.trans_le ((hXx e he).trans hq.1)) (lt_irrefl _)
            · exact h4 e he hq
          · exact absurd (hy0.trans_le ((hsXDM e0 (by simp [he0]) e he).2.trans hq.2)) (lt_irrefl _)
        · obtain ⟨h1, h2, h3, h4⟩ := hc
          refine ⟨h1, h2.trans_le (m9.trans tx.2), h3, h4.trans_le hity, ?_⟩
          intro e he hq
          rcases List.mem_append.mp he with he | he
          · rcases List.mem_append.mp he with he | he
            · exact absurd (h2.trans_le (m9.trans ((hXx e he).trans hq.1))) (lt_irrefl _)
            · exact absurd (h2.trans_le ((m11 e he).trans hq.1)) (lt_irrefl _)
          · exact absurd (h4.trans_le ((hMy e he).trans hq.2)) (lt_irrefl _)
        · exact absurd hc (inRow_nil _ _)
      · rintro ⟨h1, h2, h3, h4, h5⟩
        have hxt : x < cX tn.1 := by
          rcases htn with ht | ⟨-, ht⟩
          · by_contra hcon
            exact h5 tn (by simp [ht]) ⟨not_lt.mp hcon, hb5.trans h3⟩
          · rw [ht]; exact h2
        by_cases hxl : xl ≤ x
        · exact Or.inl (Or.inr ⟨hxl, hxt, h3, fun e he => h5 e (by simp [he])⟩)
        · refine Or.inr (Or.inl ⟨h1, not_le.mp hxl, h3, ?_⟩)
          rcases hitm with ht | ⟨-, ht⟩
          · by_contra hcon
            exact h5 it (by simp [ht]) ⟨(onM it ht).1.le.trans h1, not_lt.mp hcon⟩
          · rw [ht]; exact h4
  · -- the volumes
    intro j hj hjk
    change (bump c2 tn.2 δt).getD j 0 + acct (cZ p) (((L2.set k _).set tn.2 out).getD j []) = _
    rw [fL, bump_get, hc2]
    by_cases h1 : j = tn.2
    · subst h1
      rw [if_pos ⟨rfl, hj⟩, if_pos rfl, (m5 tn.2 nt5).2, bump_get, if_neg (fun hc => hti hc.1), ← l3]
      ring
    · rw [if_neg (fun hc => h1 hc.1), if_neg h1, if_neg hjk]
      by_cases h2 : j = it.2
      · subst h2
        rw [if_pos rfl, (m5 it.2 ni5).2, bump_get, if_pos ⟨rfl, by rw [h.lenC]; exact hj⟩, ← r2]
        ring
      · rw [if_neg h2]
        by_cases h3 : j ∈ D.map (·.2)
        · rw [if_pos h3, (m4 j h3).2, bump_get, if_neg (fun hc => h2 hc.1), getD_set, if_neg (fun hc => h2 hc.1)]
          simp
        · rw [if_neg h3, (m5 j h3).2, bump_get, if_neg (fun hc => h2 hc.1)]
  · change (bump c2 tn.2 δt).getD k 0 = _
    have hkD : k ∉ D.map (·.2) := by
      intro hc
      obtain ⟨e, he, heq⟩ := List.mem_map.mp hc
      exact hkne e (hDm e he) heq
    rw [bump_get, if_neg (fun hc => nt6 hc.1.symm), (m5 k hkD).2, bump_get, if_neg (fun hc => ni6 hc.1.symm)]

end Verif.Hv
