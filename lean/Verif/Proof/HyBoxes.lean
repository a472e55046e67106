import Verif.Model.HyCon3d
import Verif.Proof.Hv3d
import Mathlib.Tactic.Ring
import Mathlib.Tactic.Linarith

/-!
# The boxes of HyCon3D

The open boxes of a point tile the part of the plane only this point covers; what the three neighbour updates do to them.
-/

set_option autoImplicit false

namespace Verif.Hv

open Verif Verif.Spec

variable {low : ℝ}

/-- `c[j] += v` -/
def bump (c : List ℝ) (j : Nat) (v : ℝ) : List ℝ := c.set j (c.getD j 0 + v)

theorem bump_length (c : List ℝ) (j : Nat) (v : ℝ) : (bump c j v).length = c.length := by simp [bump]

theorem bump_get (c : List ℝ) (j k : Nat) (v : ℝ) :
    (bump c j v).getD k 0 = if k = j ∧ j < c.length then c.getD k 0 + v else c.getD k 0 := by
  unfold bump
  simp only [List.getD_eq_getElem?_getD, List.getElem?_set]
  by_cases h : j = k
  · subst h
    by_cases h2 : j < c.length
    · simp [h2]
    · simp [h2]
  · have : ¬ k = j := fun e => h e.symm
    simp [h, this]

theorem bump_bump (c : List ℝ) (j : Nat) (v w : ℝ) : bump (bump c j v) j w = bump c j (v + w) := by
  unfold bump
  by_cases h : j < c.length
  · rw [List.set_set]
    congr 1
    simp [List.getD_eq_getElem?_getD, h]
    ring
  · rw [List.set_eq_of_length_le (l := c.set j _) (by simp; omega), List.set_eq_of_length_le (by omega),
      List.set_eq_of_length_le (by omega)]

theorem bump_zero (c : List ℝ) (j : Nat) : bump c j 0 = c := by
  apply List.ext_getElem?
  intro k
  unfold bump
  rw [List.getElem?_set]
  split
  · next h =>
    subst h
    split
    · next h2 => simp [List.getD_eq_getElem?_getD, h2]
    · next h2 => simp [h2]
  · rfl

/-- area of the boxes -/
def areaSum (bs : List (Box3 ℝ)) : ℝ := (bs.map fun b => (b.lx - b.ux) * (b.ly - b.uy)).sum

/-- volume of the boxes if closed at level `z` -/
def acct (z : ℝ) (bs : List (Box3 ℝ)) : ℝ := (bs.map fun b => (b.lx - b.ux) * (b.ly - b.uy) * (z - b.uz)).sum

theorem acct_shift (z z' : ℝ) (bs : List (Box3 ℝ)) : acct z' bs = acct z bs + (z' - z) * areaSum bs := by
  induction bs with
  | nil => simp [acct, areaSum]
  | cons b bs ih =>
    simp only [acct, areaSum, List.map_cons, List.sum_cons] at ih ⊢
    rw [ih]; ring

@[simp] theorem acct_nil (z : ℝ) : acct z [] = 0 := rfl

@[simp] theorem acct_cons (z : ℝ) (b : Box3 ℝ) (bs : List (Box3 ℝ)) :
    acct z (b :: bs) = (b.lx - b.ux) * (b.ly - b.uy) * (z - b.uz) + acct z bs := rfl

theorem acct_append (z : ℝ) (as bs : List (Box3 ℝ)) : acct z (as ++ bs) = acct z as + acct z bs := by
  simp [acct]

theorem acct_reverse (z : ℝ) (bs : List (Box3 ℝ)) : acct z bs.reverse = acct z bs := by
  unfold acct
  rw [List.map_reverse, List.sum_reverse]

/-- Boxes in reverse order, the first starting at `a`, without gaps, higher ones first; all start at height `qy`. -/
def RowR (qy z : ℝ) : ℝ → List (Box3 ℝ) → Prop
  | _, [] => True
  | a, b :: bs => b.ux = a ∧ a < b.lx ∧ b.uy = qy ∧ qy ≤ b.ly ∧ b.uz ≤ z ∧ (∀ b' ∈ bs, b'.ly ≤ b.ly) ∧ RowR qy z b.lx bs

/-- a place in the plane is in one of the boxes -/
def InRow (bs : List (Box3 ℝ)) (x y : ℝ) : Prop := ∃ b ∈ bs, b.ux ≤ x ∧ x < b.lx ∧ b.uy ≤ y ∧ y < b.ly

theorem inRow_nil (x y : ℝ) : ¬ InRow [] x y := by rintro ⟨b, hb, -⟩; simp at hb

theorem inRow_cons (b : Box3 ℝ) (bs : List (Box3 ℝ)) (x y : ℝ) :
    InRow (b :: bs) x y ↔ (b.ux ≤ x ∧ x < b.lx ∧ b.uy ≤ y ∧ y < b.ly) ∨ InRow bs x y := by
  simp [InRow]

theorem inRow_append (as bs : List (Box3 ℝ)) (x y : ℝ) : InRow (as ++ bs) x y ↔ InRow as x y ∨ InRow bs x y := by
  simp only [InRow, List.mem_append]
  constructor
  · rintro ⟨b, h | h, hb⟩
    · exact Or.inl ⟨b, h, hb⟩
    · exact Or.inr ⟨b, h, hb⟩
  · rintro (⟨b, h, hb⟩ | ⟨b, h, hb⟩)
    · exact ⟨b, Or.inl h, hb⟩
    · exact ⟨b, Or.inr h, hb⟩

theorem inRow_reverse (bs : List (Box3 ℝ)) (x y : ℝ) : InRow bs.reverse x y ↔ InRow bs x y := by
  simp [InRow]

theorem RowR.mono {qy z z' a : ℝ} {bs : List (Box3 ℝ)} (h : RowR qy z a bs) (hz : z ≤ z') : RowR qy z' a bs := by
  induction bs generalizing a with
  | nil => trivial
  | cons b bs ih =>
    obtain ⟨h1, h2, h3, h4, h5, h6, h7⟩ := h
    exact ⟨h1, h2, h3, h4, h5.trans hz, h6, ih h7⟩

/-- a closed box: nonnegative sides -/
structure GoodBox (z : ℝ) (b : Box3 ℝ) : Prop where
  x : b.ux ≤ b.lx
  y : b.uy ≤ b.ly
  z : b.uz ≤ z

theorem RowR.good {qy z a : ℝ} {bs : List (Box3 ℝ)} (h : RowR qy z a bs) : ∀ b ∈ bs, GoodBox z b := by
  induction bs generalizing a with
  | nil => simp
  | cons b bs ih =>
    obtain ⟨h1, h2, h3, h4, h5, h6, h7⟩ := h
    intro b' hb'
    rcases List.mem_cons.mp hb' with rfl | hb'
    · exact ⟨h1 ▸ h2.le, h3 ▸ h4, h5⟩
    · exact ih h7 b' hb'

theorem RowR.start {qy z a : ℝ} {bs : List (Box3 ℝ)} (h : RowR qy z a bs) : ∀ b ∈ bs, a ≤ b.ux ∧ b.ux < b.lx ∧ b.uy = qy := by
  induction bs generalizing a with
  | nil => simp
  | cons b bs ih =>
    obtain ⟨h1, h2, h3, h4, h5, h6, h7⟩ := h
    intro b' hb'
    rcases List.mem_cons.mp hb' with rfl | hb'
    · exact ⟨h1.ge, h1 ▸ h2, h3⟩
    · have := ih h7 b' hb'
      exact ⟨h2.le.trans this.1, this.2⟩

theorem RowR.left {qy z a : ℝ} {as bs : List (Box3 ℝ)} (h : RowR qy z a (as ++ bs)) : RowR qy z a as := by
  induction as generalizing a with
  | nil => trivial
  | cons b as ih =>
    obtain ⟨h1, h2, h3, h4, h5, h6, h7⟩ := h
    exact ⟨h1, h2, h3, h4, h5, fun b' hb' => h6 b' (List.mem_append_left _ hb'), ih h7⟩

/-- the last box of a row in reverse order lies beyond the others -/
theorem RowR.snoc {qy z a : ℝ} {as : List (Box3 ℝ)} {b : Box3 ℝ} (h : RowR qy z a (as ++ [b])) :
    (∀ b' ∈ as, b'.lx ≤ b.ux) ∧ b.ux < b.lx ∧ b.uy = qy := by
  induction as generalizing a with
  | nil =>
    obtain ⟨h1, h2, h3, -⟩ := h
    exact ⟨by simp, h1 ▸ h2, h3⟩
  | cons c as ih =>
    obtain ⟨h1, h2, h3, h4, h5, h6, h7⟩ := h
    have ih := ih h7
    refine ⟨fun b' hb' => ?_, ih.2⟩
    rcases List.mem_cons.mp hb' with rfl | hb'
    · exact (h7.start b (by simp)).1
    · exact ih.1 b' hb'

/-- cutting the last box -/
theorem RowR.cut {qy z a w : ℝ} {as : List (Box3 ℝ)} {b b' : Box3 ℝ} (h : RowR qy z a (as ++ [b])) (hw : b.ux < w)
    (e1 : b'.ux = b.ux) (e2 : b'.uy = b.uy) (e3 : b'.ly = b.ly) (e4 : b'.lx = w) (e5 : b'.uz ≤ z) :
    RowR qy z a (as ++ [b']) := by
  induction as generalizing a with
  | nil =>
    obtain ⟨h1, h2, h3, h4, h5, h6, h7⟩ := h
    refine ⟨e1.trans h1, ?_, e2.trans h3, e3 ▸ h4, e5, by simp, trivial⟩
    rw [e4, ← h1]; exact hw
  | cons c as ih =>
    obtain ⟨h1, h2, h3, h4, h5, h6, h7⟩ := h
    refine ⟨h1, h2, h3, h4, h5, ?_, ih h7⟩
    intro d hd
    rcases List.mem_append.mp hd with hd | hd
    · exact h6 d (List.mem_append_left _ hd)
    · rw [List.mem_singleton.mp hd, e3]; exact h6 b (by simp)

theorem hyClose_ok {z : ℝ} {j : Nat} {b : Box3 ℝ} {c : List ℝ} (hb : GoodBox z b) (hj : j < c.length) :
    hyClose (RN low) z j b c = .ok (bump c j ((b.lx - b.ux) * (b.ly - b.uy) * (z - b.uz))) := by
  unfold hyClose
  rw [Outcome.get_of_lt hj]
  simp only [Outcome.bind_ok]
  rw [Outcome.set_of_lt hj]
  unfold bump
  congr 2
  have : c.getD j 0 = c[j] := by simp [List.getD_eq_getElem?_getD, hj]
  rw [this]
  change c[j] + |(b.ux - b.lx) * (b.uy - b.ly) * (b.uz - z)| = _
  congr 1
  have h1 : 0 ≤ (b.lx - b.ux) * (b.ly - b.uy) * (z - b.uz) :=
    mul_nonneg (mul_nonneg (sub_nonneg.mpr hb.x) (sub_nonneg.mpr hb.y)) (sub_nonneg.mpr hb.z)
  rw [show (b.ux - b.lx) * (b.uy - b.ly) * (b.uz - z) = -((b.lx - b.ux) * (b.ly - b.uy) * (z - b.uz)) by ring, abs_neg,
    abs_of_nonneg h1]

theorem hyCloseAll_ok {z : ℝ} {j : Nat} {bs : List (Box3 ℝ)} {c : List ℝ} (hb : ∀ b ∈ bs, GoodBox z b)
    (hj : bs ≠ [] → j < c.length) : hyCloseAll (RN low) z j c bs = .ok (bump c j (acct z bs)) := by
  unfold hyCloseAll
  induction bs generalizing c with
  | nil => simp [bump_zero]
  | cons b bs ih =>
    have hj := hj (by simp)
    rw [List.foldlM_cons, hyClose_ok (hb b (by simp)) hj, Outcome.bind_ok,
      ih (fun b h => hb b (by simp [h])) (fun _ => by rw [bump_length]; exact hj), bump_bump]
    rfl

/-- The right neighbour: its boxes are cut at the first coordinate of the new point. -/
theorem hyRight_ok {big : ℝ} {p : List ℝ} {j : Nat} {bs : List (Box3 ℝ)} {c : List ℝ} {qy a : ℝ}
    (hrow : RowR qy (cZ p) a bs.reverse) (hj : bs ≠ [] → j < c.length) :
    ∃ δ bs', hyRight (RN low) big p j c bs = .ok (bump c j δ, bs') ∧ δ + acct (cZ p) bs' = acct (cZ p) bs ∧
      RowR qy (cZ p) a bs'.reverse ∧ (∀ x y, InRow bs' x y ↔ InRow bs x y ∧ x < cX p) ∧ (bs = [] → bs' = []) := by
  induction bs generalizing c with
  | nil =>
    refine ⟨0, [], ?_, by simp, trivial, ?_, fun _ => rfl⟩
    · rw [bump_zero]; rfl
    · intro x y
      exact ⟨fun h => absurd h (inRow_nil x y), fun h => h.1⟩
  | cons b bs ih =>
    have hj := hj (by simp)
    rw [List.reverse_cons] at hrow
    have hsn := hrow.snoc
    have hgood := hrow.good b (by simp)
    have hlt : ∀ b' ∈ bs, b'.lx ≤ b.ux := fun b' hb' => hsn.1 b' (List.mem_reverse.mpr hb')
    unfold hyRight
    by_cases h1 : cX p ≤ b.ux
    · have e1 : (RN low).le ((RN low).at p 0) b.ux = true := decide_eq_true h1
      rw [e1, if_pos rfl]
      have hc := hyClose_ok (low := low) hgood hj
      change ∃ δ bs', (hyClose (RN low) (cZ p) j b c >>= fun c => hyRight (RN low) big p j c bs) = _ ∧ _
      rw [hc]
      simp only [Outcome.bind_ok]
      obtain ⟨δ, bs', g1, g2, g3, g4, g5⟩ := ih (c := bump c j ((b.lx - b.ux) * (b.ly - b.uy) * (cZ p - b.uz)))
        hrow.left (fun _ => by rw [bump_length]; exact hj)
      refine ⟨_ + δ, bs', by rw [g1, bump_bump], ?_, g3, ?_, by simp⟩
      · rw [acct_cons, ← g2]; ring
      · intro x y
        rw [g4, inRow_cons]
        constructor
        · rintro ⟨h, hx⟩; exact ⟨Or.inr h, hx⟩
        · rintro ⟨h | h, hx⟩
          · exact absurd (lt_of_le_of_lt (h1.trans h.1) hx) (lt_irrefl _)
          · exact ⟨h, hx⟩
    · have e1 : (RN low).le ((RN low).at p 0) b.ux = false := decide_eq_false h1
      have h1 := not_le.mp h1
      rw [e1]
      simp only [Bool.false_eq_true, if_false]
      by_cases h2 : cX p < b.lx
      · have e2 : (RN low).lt ((RN low).at p 0) b.lx = true := decide_eq_true h2
        rw [e2, if_pos rfl]
        have hc := hyClose_ok (low := low) hgood hj
        change ∃ δ bs', (hyClose (RN low) (cZ p) j b c >>= fun c => Outcome.ok (c, _)) = _ ∧ _
        rw [hc]
        simp only [Outcome.bind_ok]
        refine ⟨_, _, rfl, ?_, ?_, ?_, by simp⟩
        · rw [acct_cons, acct_cons]
          change _ + ((cX p - b.ux) * (b.ly - b.uy) * (cZ p - cZ p) + acct (cZ p) bs) = _
          ring
        · rw [List.reverse_cons]
          exact hrow.cut h1 rfl rfl rfl rfl le_rfl
        · intro x y
          rw [inRow_cons, inRow_cons]
          change (b.ux ≤ x ∧ x < cX p ∧ b.uy ≤ y ∧ y < b.ly) ∨ _ ↔ _
          constructor
          · rintro (h | h)
            · exact ⟨Or.inl ⟨h.1, h.2.1.trans h2, h.2.2⟩, h.2.1⟩
            · refine ⟨Or.inr h, ?_⟩
              obtain ⟨b', hb', hx⟩ := h
              exact (hx.2.1.trans_le (hlt b' hb')).trans h1
          · rintro ⟨h | h, hx⟩
            · exact Or.inl ⟨h.1, hx, h.2.2⟩
            · exact Or.inr h
      · have e2 : (RN low).lt ((RN low).at p 0) b.lx = false := decide_eq_false h2
        rw [e2]
        simp only [Bool.false_eq_true, if_false]
        refine ⟨0, b :: bs, by rw [bump_zero], by simp, ?_, ?_, by simp⟩
        · rw [List.reverse_cons]; exact hrow
        · intro x y
          refine ⟨fun h => ⟨h, ?_⟩, fun h => h.1⟩
          obtain ⟨b', hb', hx⟩ := h
          rcases List.mem_cons.mp hb' with rfl | hb'
          · exact lt_of_lt_of_le hx.2.1 (not_lt.mp h2)
          · exact (hx.2.1.trans_le (hlt b' hb')).trans h1

/-- The left neighbour: its boxes above the second coordinate of the new point are popped. -/
theorem hyLeft_ok {p : List ℝ} {j : Nat} {bs : List (Box3 ℝ)} {c : List ℝ} {qy a : ℝ}
    (hrow : RowR qy (cZ p) a bs) (hj : bs ≠ [] → j < c.length) :
    ∃ δ a' bs', hyLeft (RN low) p j a c bs = .ok (a', bump c j δ, bs') ∧ δ + acct (cZ p) bs' = acct (cZ p) bs ∧
      RowR qy (cZ p) a' bs' ∧ a ≤ a' ∧ (∀ b ∈ bs', b.ly ≤ cY p ∧ a' ≤ b.ux) ∧
      (∀ x y, y < cY p → (InRow bs x y ↔ InRow bs' x y ∨ (a ≤ x ∧ x < a' ∧ qy ≤ y))) ∧ (bs = [] → bs' = [] ∧ a' = a) := by
  induction bs generalizing c a with
  | nil =>
    refine ⟨0, a, [], ?_, by simp, trivial, le_rfl, by simp, ?_, fun _ => ⟨rfl, rfl⟩⟩
    · rw [bump_zero]; rfl
    · intro x y hy
      refine ⟨fun h => absurd h (inRow_nil x y), ?_⟩
      rintro (h | h)
      · exact h
      · exact absurd (h.1.trans_lt h.2.1) (lt_irrefl _)
  | cons b bs ih =>
    have hj := hj (by simp)
    have hgood := hrow.good b (by simp)
    obtain ⟨h1, h2, h3, h4, h5, h6, h7⟩ := id hrow
    unfold hyLeft
    by_cases hb : cY p < b.ly
    · have e1 : (RN low).lt ((RN low).at p 1) b.ly = true := decide_eq_true hb
      rw [e1, if_pos rfl]
      have hc := hyClose_ok (low := low) hgood hj
      change ∃ δ a' bs', (hyClose (RN low) (cZ p) j b c >>= fun c => hyLeft (RN low) p j b.lx c bs) = _ ∧ _
      rw [hc]
      simp only [Outcome.bind_ok]
      obtain ⟨δ, a', bs', g1, g2, g3, g4, g5, g6, g7⟩ := ih (c := bump c j ((b.lx - b.ux) * (b.ly - b.uy) * (cZ p - b.uz)))
        h7 (fun _ => by rw [bump_length]; exact hj)
      refine ⟨_ + δ, a', bs', by rw [g1, bump_bump], ?_, g3, h2.le.trans g4, g5, ?_, by simp⟩
      · rw [acct_cons, ← g2]; ring
      · intro x y hy
        rw [inRow_cons, g6 x y hy, h1, h3]
        constructor
        · rintro (h | h | h)
          · exact Or.inr ⟨h.1, h.2.1.trans_le g4, h.2.2.1⟩
          · exact Or.inl h
          · exact Or.inr ⟨h2.le.trans h.1, h.2⟩
        · rintro (h | h)
          · exact Or.inr (Or.inl h)
          · by_cases hx : x < b.lx
            · exact Or.inl ⟨h.1, hx, h.2.2, hy.trans hb⟩
            · exact Or.inr (Or.inr ⟨not_lt.mp hx, h.2⟩)
    · have e1 : (RN low).lt ((RN low).at p 1) b.ly = false := decide_eq_false hb
      have hb := not_lt.mp hb
      rw [e1]
      simp only [Bool.false_eq_true, if_false]
      refine ⟨0, a, b :: bs, by rw [bump_zero], by simp, hrow, le_rfl, ?_, ?_, by simp⟩
      · intro b' hb'
        refine ⟨?_, (hrow.start b' hb').1⟩
        rcases List.mem_cons.mp hb' with rfl | hb'
        · exact hb
        · exact (h6 b' hb').trans hb
      · intro x y hy
        refine ⟨Or.inl, ?_⟩
        rintro (h | h)
        · exact h
        · exact absurd (h.1.trans_lt h.2.1) (lt_irrefl _)

/-- The whole update of the left neighbour: its boxes are cut at the second coordinate of the new point. -/
theorem hyLeft_push {big : ℝ} {p pt : List ℝ} {j : Nat} {bs : List (Box3 ℝ)} {c : List ℝ}
    (hrow : RowR (cY pt) (cZ p) (cX pt) bs.reverse) (hj : bs ≠ [] → j < c.length) (hy : cY pt ≤ cY p) :
    ∃ δ a' bs' out, hyLeft (RN low) p j (cX pt) c bs.reverse = .ok (a', bump c j δ, bs') ∧
      out = (if (RN low).lt ((RN low).at pt 0) a' then
        bs'.reverse ++ [⟨a', (RN low).at p 1, big, (RN low).at pt 0, (RN low).at pt 1, (RN low).at p 2⟩] else bs'.reverse) ∧
      δ + acct (cZ p) out = acct (cZ p) bs ∧ RowR (cY pt) (cZ p) (cX pt) out.reverse ∧
      (∀ x y, InRow out x y ↔ InRow bs x y ∧ y < cY p) ∧ (bs = [] → out = []) := by
  obtain ⟨δ, a', bs', g1, g2, g3, g4, g5, g6, g7⟩ := hyLeft_ok (low := low) (p := p) (c := c) (j := j) hrow
    (fun h => hj (by rintro rfl; simp at h))
  have hlow : ∀ x y, InRow bs' x y → y < cY p := by
    rintro x y ⟨b, hb, h⟩
    exact h.2.2.2.trans_le (g5 b hb).1
  refine ⟨δ, a', bs', _, g1, rfl, ?_⟩
  rw [acct_reverse] at g2
  by_cases ha : cX pt < a'
  · have e1 : (RN low).lt ((RN low).at pt 0) a' = true := decide_eq_true ha
    rw [e1, if_pos rfl]
    refine ⟨?_, ?_, ?_, ?_⟩
    · rw [acct_append, acct_reverse, ← g2]
      change δ + (acct (cZ p) bs' + ((a' - cX pt) * (cY p - cY pt) * (cZ p - cZ p) + 0)) = _
      ring
    · rw [List.reverse_append, List.reverse_reverse]
      exact ⟨rfl, ha, rfl, hy, le_rfl, fun b hb => (g5 b hb).1, g3⟩
    · intro x y
      rw [inRow_append, inRow_reverse, inRow_cons]
      constructor
      · rintro (h | h | h)
        · have hy := hlow x y h
          exact ⟨(inRow_reverse bs x y).mp ((g6 x y hy).mpr (Or.inl h)), hy⟩
        · refine ⟨(inRow_reverse bs x y).mp ((g6 x y h.2.2.2).mpr (Or.inr ⟨h.1, h.2.1, h.2.2.1⟩)), h.2.2.2⟩
        · exact absurd h (inRow_nil _ _)
      · rintro ⟨h, hy⟩
        rcases (g6 x y hy).mp ((inRow_reverse bs x y).mpr h) with h | h
        · exact Or.inl h
        · exact Or.inr (Or.inl ⟨h.1, h.2.1, h.2.2, hy⟩)
    · intro hbs
      have := (g7 (by simp [hbs])).2
      rw [this] at ha
      exact absurd ha (lt_irrefl _)
  · have e1 : (RN low).lt ((RN low).at pt 0) a' = false := decide_eq_false ha
    have ha : a' = cX pt := le_antisymm (not_lt.mp ha) g4
    rw [e1]
    simp only [Bool.false_eq_true, if_false]
    refine ⟨by rw [acct_reverse]; exact g2, ?_, ?_, fun hbs => by rw [(g7 (by simp [hbs])).1]; rfl⟩
    · rw [List.reverse_reverse, ← ha]; exact g3
    · intro x y
      rw [inRow_reverse]
      constructor
      · intro h
        have hy := hlow x y h
        exact ⟨(inRow_reverse bs x y).mp ((g6 x y hy).mpr (Or.inl h)), hy⟩
      · rintro ⟨h, hy⟩
        rcases (g6 x y hy).mp ((inRow_reverse bs x y).mpr h) with h | h
        · exact h
        · rw [ha] at h; exact absurd (h.1.trans_lt h.2.1) (lt_irrefl _)

end Verif.Hv
