import Verif.Proof.Fnds

/-! Helper lemmas for `non_dominated_front_2d`, `ideal` and `nadir`. -/

set_option autoImplicit false

namespace Verif.MO

open Verif Outcome Spec

variable {K : Type} [LinearOrder K]

theorem exists_top_dominator (pts : List (List (Fl K))) {i j : Nat} (h : DomIdx pts j i) :
    ∃ j', DomIdx pts j' i ∧ ∀ k, ¬ DomIdx pts k j' := by
  have := exhaust (n := pts.length) (domIdx_irrefl pts) (fun a b c => domIdx_trans)
    (fun b => (∀ k, ¬ DomIdx pts k b) ∨ ∃ j', DomIdx pts j' b ∧ ∀ k, ¬ DomIdx pts k j') ?_ i
    (by obtain ⟨_, h, _⟩ := h; exact h)
  · rcases this with h' | h'
    · exact absurd h (h' j)
    · exact h'
  · intro b hb hS
    rw [not_or] at hS
    obtain ⟨h1, h2⟩ := hS
    push Not at h1
    obtain ⟨a, ha⟩ := h1
    refine ⟨a, by obtain ⟨h, _, _⟩ := ha; exact h, ?_, ha⟩
    rintro (h3 | ⟨j', h3, h4⟩)
    · exact h2 ⟨a, ha, h3⟩
    · exact h2 ⟨j', domIdx_trans h3 ha, h4⟩

/-- lexicographic key of a two-objective point -/
def key2 (pts : List (List (Fl K))) (i : Nat) : Lex (Fl K × Fl K) :=
  match pts[i]? with
  | some [a, b] => toLex (a, b)
  | _ => toLex (.nan, .nan)

theorem cmp2d_iff {pts : List (List (Fl K))} (h2 : ∀ p ∈ pts, p.length = 2) {a b : Nat}
    (ha : a < pts.length) (hb : b < pts.length) :
    cmp2d pts a b = true ↔ key2 pts a < key2 pts b := by
  unfold cmp2d key2
  rw [List.getElem?_eq_getElem ha, List.getElem?_eq_getElem hb]
  obtain ⟨a0, a1, ea⟩ := List.length_eq_two.mp (h2 _ (List.getElem_mem ha))
  obtain ⟨b0, b1, eb⟩ := List.length_eq_two.mp (h2 _ (List.getElem_mem hb))
  rw [ea, eb]
  simp only
  rw [Prod.Lex.toLex_lt_toLex]
  split
  · rename_i h
    rw [Fl.equalToF_iff] at h
    rw [Fl.lessThanF_iff]
    simp [h]
  · rename_i h
    rw [Fl.equalToF_iff] at h
    rw [Fl.lessThanF_iff]
    simp [h]

theorem key2_lt_of_dom {pts : List (List (Fl K))} (h2 : ∀ p ∈ pts, p.length = 2) {a b : Nat}
    (h : DomIdx pts a b) : key2 pts a < key2 pts b := by
  obtain ⟨ha, hb, hl, hw, k, hk, hk', hs⟩ := h
  unfold key2
  rw [List.getElem?_eq_getElem ha, List.getElem?_eq_getElem hb]
  obtain ⟨a0, a1, ea⟩ := List.length_eq_two.mp (h2 _ (List.getElem_mem ha))
  obtain ⟨b0, b1, eb⟩ := List.length_eq_two.mp (h2 _ (List.getElem_mem hb))
  generalize pts[a] = pa at hl hw hk hs ea
  generalize pts[b] = pb at hl hw hk' hs eb
  subst ea eb
  simp only
  rw [Prod.Lex.toLex_lt_toLex]
  simp only
  have w0 : a0 ≤ b0 := hw 0 (by simp) (by simp)
  have w1 : a1 ≤ b1 := hw 1 (by simp) (by simp)
  rcases lt_or_eq_of_le w0 with h | h
  · exact Or.inl h
  · refine Or.inr ⟨h, ?_⟩
    match k, hk, hk', hs with
    | 0, _, _, hs => exact absurd h (ne_of_lt hs)
    | 1, _, _, hs => exact hs

theorem dominatedBySome_spec {pts : List (List (Fl K))} (hs : SameLength pts) {i : Nat}
    (hi : i < pts.length) (front : List Nat) (hf : ∀ j ∈ front, j < pts.length) :
    ∃ r, dominatedBySome pts i front = .ok r ∧ (r = true ↔ ∃ j ∈ front, DomIdx pts j i) := by
  induction front with
  | nil => exact ⟨false, rfl, by simp⟩
  | cons j js ih =>
    have hj := hf j List.mem_cons_self
    obtain ⟨r, hr, hr'⟩ := ih (fun x hx => hf x (List.mem_cons_of_mem _ hx))
    have hl : pts[j].length = pts[i].length := hs _ (List.getElem_mem hj) _ (List.getElem_mem hi)
    obtain ⟨r1, e1, h1⟩ := paretoDominance_spec pts[j] pts[i] hl
    have d1 : r1 = true ↔ DomIdx pts j i := by
      rw [h1]; exact ⟨fun h => ⟨hj, hi, h⟩, fun ⟨_, _, h⟩ => h⟩
    unfold dominatedBySome
    rw [get_of_lt hj, get_of_lt hi]
    simp only [bind_ok, e1]
    cases r1 with
    | true => exact ⟨true, by simp, by simp [d1.mp rfl]⟩
    | false =>
      refine ⟨r, by simpa using hr, ?_⟩
      rw [hr']
      have : ¬ DomIdx pts j i := fun h => by simpa using d1.mpr h
      simp [this]

theorem front2d_sat {srt : (Nat → Nat → Bool) → List Nat → List Nat} (hsrt : ValidSort srt)
    {pts : List (List (Fl K))} (h2 : ∀ p ∈ pts, p.length = 2) :
    (nonDominatedFront2d srt pts).Sat (fun f => f.Nodup ∧
      ∀ i, i ∈ f ↔ i < pts.length ∧ ∀ j, ¬ DomIdx pts j i) := by
  have hs : SameLength pts := fun p hp q hq => (h2 p hp).trans (h2 q hq).symm
  unfold nonDominatedFront2d
  cases hpts : pts with
  | nil => simp
  | cons p0 rest =>
    simp only
    rw [← hpts]
    have hp0 : p0.length = 2 := h2 p0 (by rw [hpts]; simp)
    rw [if_neg (by
      simp only [Bool.not_eq_true', Bool.not_eq_false, List.all_eq_true, beq_iff_eq]
      intro p hp; rw [h2 p hp, hp0]), if_neg (by simpa using hp0)]
    refine (stdSort_sat hsrt (swoOn_of_key (key2 pts) ?_)).bind ?_
    · intro a ha b hb
      exact cmp2d_iff h2 (List.mem_range.mp ha) (List.mem_range.mp hb)
    · intro idx hidx
      have hmem : ∀ i, i ∈ idx ↔ i < pts.length := by
        intro i; rw [hidx.perm.mem_iff, List.mem_range]
      have hnd : idx.Nodup := hidx.perm.nodup_iff.mpr List.nodup_range
      classical
      have key := foldlM_sat (f := fun (front : List Nat) (i : Nat) => (do
          if ← dominatedBySome pts i front then pure front else pure (front ++ [i]) : Outcome _))
        (fun pre front => front = pre.filter (fun i => decide (∀ j, ¬ DomIdx pts j i))) idx [] []
        (by simp) ?_
      · refine key.mono ?_
        intro f hf
        rw [List.nil_append] at hf
        subst hf
        refine ⟨hnd.filter _, ?_⟩
        intro i
        rw [List.mem_filter, hmem, decide_eq_true_eq]
      · intro p i q front hl hfront
        rw [List.nil_append] at hfront ⊢
        have hi : i < pts.length := (hmem i).mp (by rw [hl]; simp)
        have hfl : ∀ j ∈ front, j < pts.length := by
          intro j hj
          rw [hfront] at hj
          exact (hmem j).mp (by rw [hl]; exact List.mem_append_left _ (List.mem_filter.mp hj).1)
        obtain ⟨r, hr, hr'⟩ := dominatedBySome_spec hs hi front hfl
        rw [hr, bind_ok, List.filter_append, ← hfront]
        have hiff : r = true ↔ ∃ j, DomIdx pts j i := by
          rw [hr']
          constructor
          · rintro ⟨j, _, h⟩; exact ⟨j, h⟩
          · rintro ⟨j, h⟩
            obtain ⟨j', h1, h3⟩ := exists_top_dominator pts h
            refine ⟨j', ?_, h1⟩
            have hj' : j' < pts.length := by obtain ⟨h, _, _⟩ := h1; exact h
            have hin : j' ∈ p ++ i :: q := by rw [← hl]; exact (hmem j').mpr hj'
            rw [hfront, List.mem_filter, decide_eq_true_eq]
            refine ⟨?_, h3⟩
            rcases List.mem_append.mp hin with h | h
            · exact h
            · exfalso
              rcases List.mem_cons.mp h with h | h
              · subst h; exact domIdx_irrefl _ _ h1
              · have hsort := hidx.sorted
                rw [hl] at hsort
                have := (List.pairwise_cons.mp (List.pairwise_append.mp hsort).2.1).1 j' h
                have hlt := (cmp2d_iff h2 hj' hi).mpr (key2_lt_of_dom h2 h1)
                rw [this] at hlt; cases hlt
        cases r with
        | true =>
          obtain ⟨j, hj⟩ := hiff.mp rfl
          have : ¬ ∀ j, ¬ DomIdx pts j i := fun h => h j hj
          simp [this]
        | false =>
          have : ∀ j, ¬ DomIdx pts j i := by
            intro j hj
            have := hiff.mpr ⟨j, hj⟩; cases this
          simp [this]

/-! ### ideal, nadir -/

theorem minElem_sat {pts : List (List (Fl K))} (hne : pts ≠ []) {i : Nat}
    (hi : ∀ p ∈ pts, i < p.length) :
    (minElem i pts).Sat (fun m => (∃ p ∈ pts, p[i]? = some m) ∧
      ∀ p ∈ pts, ∀ x, p[i]? = some x → m ≤ x) := by
  cases pts with
  | nil => exact absurd rfl hne
  | cons p ps =>
    have hp := hi p List.mem_cons_self
    rw [minElem, get_of_lt hp, bind_ok]
    have key := foldlM_sat (f := fun (best : Fl K) (q : List (Fl K)) => (do
        let b ← Outcome.get q i
        pure (if Fl.lessThanF b best then b else best) : Outcome _))
      (fun pre m => (∃ q ∈ p :: pre, q[i]? = some m) ∧
        ∀ q ∈ p :: pre, ∀ x, q[i]? = some x → m ≤ x) ps [] p[i] ?_ ?_
    · simpa using key
    · refine ⟨⟨p, by simp, List.getElem?_eq_getElem hp⟩, ?_⟩
      intro q hq x hx
      have : q = p := by simpa using hq
      subst this
      rw [List.getElem?_eq_getElem hp] at hx
      cases hx; exact le_refl _
    · intro pre q post m hl hinv
      rw [List.nil_append] at hinv ⊢
      obtain ⟨⟨q0, hq0, hm⟩, hmin⟩ := hinv
      have hq := hi q (by rw [hl]; simp)
      rw [get_of_lt hq]
      simp only [bind_ok, pure_eq, sat_ok]
      have step : ∀ m', m' ≤ m → m' ≤ q[i] → ∀ r ∈ p :: (pre ++ [q]), ∀ x, r[i]? = some x →
          m' ≤ x := by
        intro m' h1 h2 r hr x hx
        have : r ∈ p :: pre ∨ r = q := by
          simp at hr ⊢; tauto
        rcases this with h | h
        · exact le_trans h1 (hmin r h x hx)
        · subst h
          rw [List.getElem?_eq_getElem hq] at hx
          cases hx; exact h2
      split
      · rename_i h
        rw [Fl.lessThanF_iff] at h
        exact ⟨⟨q, by simp, List.getElem?_eq_getElem hq⟩, step _ (le_of_lt h) (le_refl _)⟩
      · rename_i h
        rw [Fl.lessThanF_iff, not_lt] at h
        refine ⟨⟨q0, ?_, hm⟩, step _ (le_refl _) h⟩
        simp at hq0 ⊢; tauto

theorem maxElem_sat {pts : List (List (Fl K))} (hne : pts ≠ []) {i : Nat}
    (hi : ∀ p ∈ pts, i < p.length) :
    (maxElem i pts).Sat (fun m => (∃ p ∈ pts, p[i]? = some m) ∧
      ∀ p ∈ pts, ∀ x, p[i]? = some x → x ≤ m) := by
  cases pts with
  | nil => exact absurd rfl hne
  | cons p ps =>
    have hp := hi p List.mem_cons_self
    rw [maxElem, get_of_lt hp, bind_ok]
    have key := foldlM_sat (f := fun (best : Fl K) (q : List (Fl K)) => (do
        let b ← Outcome.get q i
        pure (if Fl.lessThanF best b then b else best) : Outcome _))
      (fun pre m => (∃ q ∈ p :: pre, q[i]? = some m) ∧
        ∀ q ∈ p :: pre, ∀ x, q[i]? = some x → x ≤ m) ps [] p[i] ?_ ?_
    · simpa using key
    · refine ⟨⟨p, by simp, List.getElem?_eq_getElem hp⟩, ?_⟩
      intro q hq x hx
      have : q = p := by simpa using hq
      subst this
      rw [List.getElem?_eq_getElem hp] at hx
      cases hx; exact le_refl _
    · intro pre q post m hl hinv
      rw [List.nil_append] at hinv ⊢
      obtain ⟨⟨q0, hq0, hm⟩, hmin⟩ := hinv
      have hq := hi q (by rw [hl]; simp)
      rw [get_of_lt hq]
      simp only [bind_ok, pure_eq, sat_ok]
      have step : ∀ m', m ≤ m' → q[i] ≤ m' → ∀ r ∈ p :: (pre ++ [q]), ∀ x, r[i]? = some x →
          x ≤ m' := by
        intro m' h1 h2 r hr x hx
        have : r ∈ p :: pre ∨ r = q := by
          simp at hr ⊢; tauto
        rcases this with h | h
        · exact le_trans (hmin r h x hx) h1
        · subst h
          rw [List.getElem?_eq_getElem hq] at hx
          cases hx; exact h2
      split
      · rename_i h
        rw [Fl.lessThanF_iff] at h
        exact ⟨⟨q, by simp, List.getElem?_eq_getElem hq⟩, step _ (le_of_lt h) (le_refl _)⟩
      · rename_i h
        rw [Fl.lessThanF_iff, not_lt] at h
        refine ⟨⟨q0, ?_, hm⟩, step _ (le_refl _) h⟩
        simp at hq0 ⊢; tauto

theorem mapM_sat {α β : Type} {f : α → Outcome β} {P : α → β → Prop} (l : List α)
    (h : ∀ a ∈ l, (f a).Sat (P a)) :
    (l.mapM f).Sat (fun r => List.Forall₂ P l r) := by
  induction l with
  | nil => simp
  | cons a l ih =>
    rw [List.mapM_cons]
    refine (h a List.mem_cons_self).bind ?_
    intro b hb
    refine (ih (fun x hx => h x (List.mem_cons_of_mem _ hx))).bind ?_
    intro bs hbs
    simp only [pure_eq, sat_ok]
    exact List.Forall₂.cons hb hbs

theorem forall₂_range {β : Type} {P : Nat → β → Prop} {n : Nat} {r : List β}
    (h : List.Forall₂ P (List.range n) r) : r.length = n ∧ ∀ i b, r[i]? = some b → P i b := by
  refine ⟨by simpa using h.length_eq.symm, ?_⟩
  intro i b hb
  obtain ⟨hi, rfl⟩ := List.getElem?_eq_some_iff.mp hb
  have := List.forall₂_iff_get.mp h
  have hi2 : i < (List.range n).length := by rw [h.length_eq]; exact hi
  have := this.2 i hi2 hi
  simpa using this

end Verif.MO
