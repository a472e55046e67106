import Verif.Proof.Dominance
import Mathlib.Data.Finset.Card
import Mathlib.Data.Finset.Range

/-! Helper lemmas for `fast_non_dominated_sorting`. -/

set_option autoImplicit false

namespace Verif.MO

open Verif Outcome Spec

variable {K : Type} [LinearOrder K]

open Classical in
/-- number of sources of edges into `b` -/
noncomputable def inDeg (n : Nat) (E : Nat → Nat → Prop) (b : Nat) : Nat :=
  ((Finset.range n).filter (fun a => E a b)).card

theorem inDeg_congr {n : Nat} {E F : Nat → Nat → Prop} {b : Nat}
    (h : ∀ a, a < n → (E a b ↔ F a b)) : inDeg n E b = inDeg n F b := by
  unfold inDeg
  congr 1
  ext a
  simp only [Finset.mem_filter, Finset.mem_range]
  constructor <;> rintro ⟨h1, h2⟩ <;> exact ⟨h1, by first | exact (h a h1).mp h2 | exact (h a h1).mpr h2⟩

theorem inDeg_add {n : Nat} {E F : Nat → Nat → Prop} {a b : Nat} (ha : a < n) (hE : ¬ E a b)
    (h : ∀ x, F x b ↔ (E x b ∨ x = a)) : inDeg n F b = inDeg n E b + 1 := by
  classical
  unfold inDeg
  have : (Finset.range n).filter (fun x => F x b) =
      insert a ((Finset.range n).filter (fun x => E x b)) := by
    ext x
    simp only [Finset.mem_filter, Finset.mem_range, Finset.mem_insert, h]
    constructor
    · rintro ⟨h1, h2 | h2⟩
      · exact Or.inr ⟨h1, h2⟩
      · exact Or.inl h2
    · rintro (h1 | ⟨h1, h2⟩)
      · exact ⟨h1 ▸ ha, Or.inr h1⟩
      · exact ⟨h1, Or.inl h2⟩
  rw [this, Finset.card_insert_of_notMem]
  simp [hE]

theorem inDeg_zero_iff {n : Nat} {E : Nat → Nat → Prop} {b : Nat} :
    inDeg n E b = 0 ↔ ∀ a, a < n → ¬ E a b := by
  classical
  unfold inDeg
  rw [Finset.card_eq_zero, Finset.filter_eq_empty_iff]
  simp

/-- The arrays `dom_list`, `dom_count` represent the edge relation `E`. -/
structure Rep (n : Nat) (E : Nat → Nat → Prop) (s : List (List Nat) × List Nat) : Prop where
  len1 : s.1.length = n
  len2 : s.2.length = n
  nodup : ∀ (a : Nat) (l : List Nat), s.1[a]? = some l → l.Nodup
  mem : ∀ (a : Nat) (l : List Nat), s.1[a]? = some l → ∀ b, b ∈ l ↔ E a b
  count : ∀ (b c : Nat), s.2[b]? = some c → c = inDeg n E b

theorem modifyAt_of_lt {α : Type} {l : List α} {i : Nat} {f : α → α} (h : i < l.length) :
    modifyAt l i f = .ok (l.set i (f l[i])) := by
  simp [modifyAt, get_of_lt h, set_of_lt h]

/-- adding one edge -/
theorem Rep.add {n : Nat} {E F : Nat → Nat → Prop} {s : List (List Nat) × List Nat}
    (h : Rep n E s) {a b : Nat} (ha : a < n) (hb : b < n) (hE : ¬ E a b)
    (hF : ∀ x y, F x y ↔ (E x y ∨ (x = a ∧ y = b))) :
    (do let dl ← modifyAt s.1 a (· ++ [b])
        let dc ← modifyAt s.2 b (· + 1)
        pure (dl, dc) : Outcome _).Sat (Rep n F) := by
  have ha' : a < s.1.length := by rw [h.len1]; exact ha
  have hb' : b < s.2.length := by rw [h.len2]; exact hb
  rw [modifyAt_of_lt ha', modifyAt_of_lt hb']
  simp only [bind_ok, pure_eq, sat_ok]
  have hm := h.mem a s.1[a] (List.getElem?_eq_getElem ha')
  have hn := h.nodup a s.1[a] (List.getElem?_eq_getElem ha')
  have hc := h.count b s.2[b] (List.getElem?_eq_getElem hb')
  refine ⟨by simp [h.len1], by simp [h.len2], ?_, ?_, ?_⟩
  · intro x l hx
    rw [List.getElem?_set] at hx
    split at hx
    · rename_i hxa
      cases hx
      rw [List.nodup_append]
      refine ⟨hn, by simp, ?_⟩
      intro y hy z hz
      have : z = b := by simpa using hz
      subst this
      rintro rfl
      exact hE ((hm y).mp hy)
    · exact h.nodup x l hx
  · intro x l hx y
    rw [List.getElem?_set] at hx
    split at hx
    · rename_i hxa
      cases hx
      subst hxa
      simp [hm, hF]
    · rename_i hxa
      rw [h.mem x l hx, hF]
      constructor
      · exact Or.inl
      · rintro (h1 | ⟨h1, _⟩)
        · exact h1
        · exact absurd h1.symm hxa
  · intro y c hy
    rw [List.getElem?_set] at hy
    split at hy
    · rename_i hyb
      cases hy
      subst hyb
      rw [hc]
      refine (inDeg_add ha hE ?_).symm
      intro x; rw [hF]; simp
    · rename_i hyb
      rw [h.count y c hy]
      apply inDeg_congr
      intro x _
      rw [hF]
      constructor
      · exact Or.inl
      · rintro (h1 | ⟨_, h1⟩)
        · exact h1
        · exact absurd h1.symm hyb

theorem Rep.congr {n : Nat} {E F : Nat → Nat → Prop} {s : List (List Nat) × List Nat}
    (h : Rep n E s) (hF : ∀ x y, F x y ↔ E x y) : Rep n F s := by
  have : F = E := by funext x y; exact propext (hF x y)
  rw [this]; exact h

/-- pairs compared so far: both below `i`, or one equal to `i` and the other below `j` -/
def Seen (pts : List (List (Fl K))) (i j a b : Nat) : Prop :=
  ((a < i ∧ b < i) ∨ (a = i ∧ b < j) ∨ (b = i ∧ a < j)) ∧ DomIdx pts a b

theorem fndsPair_sat {pts : List (List (Fl K))} (hs : SameLength pts) {i j : Nat}
    (hi : i < pts.length) (hj : j < i) {s : List (List Nat) × List Nat}
    (h : Rep pts.length (Seen pts i j) s) :
    (fndsPair pts i s j).Sat (Rep pts.length (Seen pts i (j + 1))) := by
  have hj' : j < pts.length := by omega
  unfold fndsPair
  rw [get_of_lt hi, get_of_lt hj']
  simp only [bind_ok]
  have hl : pts[i].length = pts[j].length :=
    hs _ (List.getElem_mem hi) _ (List.getElem_mem hj')
  obtain ⟨r1, e1, h1⟩ := paretoDominance_spec pts[i] pts[j] hl
  obtain ⟨r2, e2, h2⟩ := paretoDominance_spec pts[j] pts[i] hl.symm
  have d1 : r1 = true ↔ DomIdx pts i j := by
    rw [h1]; exact ⟨fun h => ⟨hi, hj', h⟩, fun ⟨_, _, h⟩ => h⟩
  have d2 : r2 = true ↔ DomIdx pts j i := by
    rw [h2]; exact ⟨fun h => ⟨hj', hi, h⟩, fun ⟨_, _, h⟩ => h⟩
  rw [e1]
  simp only [bind_ok]
  split
  · rename_i hr
    have hd := d1.mp hr
    refine h.add hi hj' ?_ ?_
    · rintro ⟨h3, _⟩; omega
    · intro x y
      unfold Seen
      constructor
      · rintro ⟨h3, h4⟩
        rcases h3 with h3 | ⟨h3, h5⟩ | ⟨h3, h5⟩
        · exact Or.inl ⟨Or.inl h3, h4⟩
        · by_cases hy : y = j
          · exact Or.inr ⟨h3, hy⟩
          · exact Or.inl ⟨Or.inr (Or.inl ⟨h3, by omega⟩), h4⟩
        · by_cases hx : x = j
          · subst h3 hx; exact absurd h4 (domIdx_asymm hd)
          · exact Or.inl ⟨Or.inr (Or.inr ⟨h3, by omega⟩), h4⟩
      · rintro (⟨h3, h4⟩ | ⟨rfl, rfl⟩)
        · exact ⟨by omega, h4⟩
        · exact ⟨by omega, hd⟩
  · rename_i hr
    rw [e2]
    simp only [bind_ok]
    have hnd : ¬ DomIdx pts i j := fun h => hr (d1.mpr h)
    split
    · rename_i hr2
      have hd := d2.mp hr2
      refine h.add hj' hi ?_ ?_
      · rintro ⟨h3, _⟩; omega
      · intro x y
        unfold Seen
        constructor
        · rintro ⟨h3, h4⟩
          rcases h3 with h3 | ⟨h3, h5⟩ | ⟨h3, h5⟩
          · exact Or.inl ⟨Or.inl h3, h4⟩
          · by_cases hy : y = j
            · subst h3 hy; exact absurd h4 hnd
            · exact Or.inl ⟨Or.inr (Or.inl ⟨h3, by omega⟩), h4⟩
          · by_cases hx : x = j
            · exact Or.inr ⟨hx, h3⟩
            · exact Or.inl ⟨Or.inr (Or.inr ⟨h3, by omega⟩), h4⟩
        · rintro (⟨h3, h4⟩ | ⟨rfl, rfl⟩)
          · exact ⟨by omega, h4⟩
          · exact ⟨by omega, hd⟩
    · rename_i hr2
      have hnd2 : ¬ DomIdx pts j i := fun h => hr2 (d2.mpr h)
      simp only [pure_eq, sat_ok]
      refine h.congr ?_
      intro x y
      unfold Seen
      constructor
      · rintro ⟨h3, h4⟩
        refine ⟨?_, h4⟩
        rcases h3 with h3 | ⟨h3, h5⟩ | ⟨h3, h5⟩
        · exact Or.inl h3
        · by_cases hy : y = j
          · subst h3 hy; exact absurd h4 hnd
          · omega
        · by_cases hx : x = j
          · subst h3 hx; exact absurd h4 hnd2
          · omega
      · rintro ⟨h3, h4⟩; exact ⟨by omega, h4⟩

theorem fndsBuild_sat {pts : List (List (Fl K))} (hs : SameLength pts) :
    (fndsBuild pts).Sat (Rep pts.length (DomIdx pts)) := by
  unfold fndsBuild
  have key := range_sat (f := fun (s : List (List Nat) × List Nat) i => do
      let dl ← Outcome.set s.1 i []
      let dc ← Outcome.set s.2 i 0
      (List.range i).foldlM (fndsPair pts i) (dl, dc))
    (fun i s => Rep pts.length (Seen pts i 0) s) pts.length
    (List.replicate pts.length [], List.replicate pts.length 0) ?_ ?_
  · refine key.mono ?_
    intro s h
    refine h.congr ?_
    intro x y
    unfold Seen
    constructor
    · intro h
      have h' := h
      obtain ⟨h1, h2, _⟩ := h
      exact ⟨Or.inl ⟨h1, h2⟩, h'⟩
    · exact fun h => h.2
  · refine ⟨by simp, by simp, ?_, ?_, ?_⟩
    · intro a l hl
      rw [List.getElem?_replicate] at hl
      split at hl <;> simp at hl
      subst hl; simp
    · intro a l hl b
      rw [List.getElem?_replicate] at hl
      split at hl <;> simp at hl
      subst hl
      simp [Seen]
    · intro b c hl
      rw [List.getElem?_replicate] at hl
      split at hl <;> simp at hl
      subst hl
      symm
      rw [inDeg_zero_iff]
      rintro a _ ⟨h, _⟩; omega
  · intro i s hi h
    have h1 : i < s.1.length := by rw [h.len1]; exact hi
    have h2 : i < s.2.length := by rw [h.len2]; exact hi
    simp only [set_of_lt h1, set_of_lt h2, bind_ok]
    have h0 : Rep pts.length (Seen pts i 0) (s.1.set i [], s.2.set i 0) := by
      refine ⟨by simp [h.len1], by simp [h.len2], ?_, ?_, ?_⟩
      · intro x l hx
        rw [List.getElem?_set] at hx
        split at hx
        · cases hx; simp
        · exact h.nodup x l hx
      · intro x l hx y
        rw [List.getElem?_set] at hx
        split at hx
        · rename_i hxi
          cases hx
          simp only [List.not_mem_nil, false_iff]
          rintro ⟨h3, _⟩; omega
        · exact h.mem x l hx y
      · intro y c hy
        rw [List.getElem?_set] at hy
        split at hy
        · rename_i hyi
          cases hy
          symm
          rw [inDeg_zero_iff]
          rintro a _ ⟨h3, _⟩; omega
        · exact h.count y c hy
    have := range_sat (f := fndsPair pts i) (fun j s => Rep pts.length (Seen pts i j) s) i
      (s.1.set i [], s.2.set i 0) h0 ?_
    · refine this.mono ?_
      intro s h
      refine h.congr ?_
      intro x y
      unfold Seen
      constructor
      · rintro ⟨h3, h4⟩
        refine ⟨?_, h4⟩
        rcases h3 with h3 | h3 | h3
        · by_cases hx : x = i
          · subst hx
            by_cases hy : y = x
            · subst hy; exact absurd h4 (domIdx_irrefl _ _)
            · omega
          · by_cases hy : y = i <;> omega
        · omega
        · omega
      · rintro ⟨h3, h4⟩
        exact ⟨by omega, h4⟩
    · intro j s hj h
      exact fndsPair_sat hs hi hj h

/-- If two of the points have different sizes, the build phase throws. -/
theorem fndsBuild_throws {pts : List (List (Fl K))} (hs : ¬ SameLength pts) :
    fndsBuild pts = .throws .invalidArgument := by
  have key : (fndsBuild pts).SatE .invalidArgument (fun _ => SameLength pts) := by
    unfold fndsBuild
    have := range_satE (e := .invalidArgument) (f := fun (s : List (List Nat) × List Nat) i => do
      let dl ← Outcome.set s.1 i []
      let dc ← Outcome.set s.2 i 0
      (List.range i).foldlM (fndsPair pts i) (dl, dc))
      (fun i s => (s.1.length = pts.length ∧ s.2.length = pts.length) ∧
        ∀ x y (hx : x < pts.length) (hy : y < pts.length), x < i → y < i →
          pts[x].length = pts[y].length) pts.length
      (List.replicate pts.length [], List.replicate pts.length 0) ?_ ?_
    · refine this.mono ?_
      rintro s ⟨_, h⟩ p hp q hq
      obtain ⟨x, hx, rfl⟩ := List.getElem_of_mem hp
      obtain ⟨y, hy, rfl⟩ := List.getElem_of_mem hq
      exact h x y hx hy hx hy
    · simp
    · rintro i s hi ⟨⟨l1, l2⟩, h⟩
      have h1 : i < s.1.length := by omega
      have h2 : i < s.2.length := by omega
      simp only [set_of_lt h1, set_of_lt h2, bind_ok]
      have := range_satE (e := .invalidArgument) (f := fndsPair pts i)
        (fun j s => (s.1.length = pts.length ∧ s.2.length = pts.length) ∧
          ∀ x (hx : x < pts.length), x < j → pts[i].length = pts[x].length) i
        (s.1.set i [], s.2.set i 0) (by simp [l1, l2]) ?_
      · refine this.mono ?_
        rintro s ⟨hl, h'⟩
        refine ⟨hl, ?_⟩
        intro x y hx hy hxi hyi
        by_cases ex : x = i
        · by_cases ey : y = i
          · subst ex ey; rfl
          · subst ex; exact h' y hy (by omega)
        · by_cases ey : y = i
          · subst ey; exact (h' x hx (by omega)).symm
          · exact h x y hx hy (by omega) (by omega)
      · rintro j s hj ⟨⟨l1, l2⟩, h'⟩
        have hj' : j < pts.length := by omega
        unfold fndsPair
        rw [get_of_lt hi, get_of_lt hj']
        simp only [bind_ok]
        by_cases hl : pts[i].length = pts[j].length
        · obtain ⟨r1, e1, -⟩ := paretoDominance_spec pts[i] pts[j] hl
          obtain ⟨r2, e2, -⟩ := paretoDominance_spec pts[j] pts[i] hl.symm
          have fin : ∀ x (hx : x < pts.length), x < j + 1 → pts[i].length = pts[x].length := by
            intro x hx hxj
            by_cases e : x = j
            · subst e; exact hl
            · exact h' x hx (by omega)
          rw [e1, bind_ok]
          split
          · rw [modifyAt_of_lt (by omega), modifyAt_of_lt (by omega)]
            simpa [l1, l2] using fin
          · rw [e2, bind_ok]
            split
            · rw [modifyAt_of_lt (by omega), modifyAt_of_lt (by omega)]
              simpa [l1, l2] using fin
            · simpa [l1, l2] using fin
        · have : paretoDominance pts[i] pts[j] = .throws .invalidArgument := by
            simp [paretoDominance, hl]
          rw [this]; simp
  rcases key with h | ⟨_, _, h⟩
  · exact h
  · exact absurd h hs

/-! ### Peeling -/

theorem inDeg_remove {n : Nat} {E F : Nat → Nat → Prop} {a b : Nat} (ha : a < n) (hE : E a b)
    (h : ∀ x, F x b ↔ (E x b ∧ x ≠ a)) : inDeg n E b = inDeg n F b + 1 := by
  apply inDeg_add ha
  · rw [h]; simp
  · intro x
    rw [h]
    by_cases hx : x = a
    · subst hx; simp [hE]
    · simp [hx]

/-- State of the peeling loops: `E` is the relation of edges not yet removed. -/
structure PInv (n k : Nat) (r0 : List Nat) (E : Nat → Nat → Prop) (done : List Nat)
    (s : List Nat × List Nat × List Nat) : Prop where
  lenc : s.2.1.length = n
  lenr : s.2.2.length = n
  count : ∀ b, b < n → s.2.1[b]? = some (inDeg n E b)
  lt : ∀ b ∈ done ++ s.1, b < n
  nodup : (done ++ s.1).Nodup
  zero : ∀ b, b < n → (inDeg n E b = 0 ↔ b ∈ done ++ s.1)
  rnext : ∀ b ∈ s.1, s.2.2[b]? = some (k + 1)
  rdone : ∀ b ∈ done, s.2.2[b]? = r0[b]?

theorem PInv.congr {n k : Nat} {r0 : List Nat} {E F : Nat → Nat → Prop} {done : List Nat}
    {s : List Nat × List Nat × List Nat} (h : PInv n k r0 E done s)
    (hF : ∀ x y, F x y ↔ E x y) : PInv n k r0 F done s := by
  have : F = E := by funext x y; exact propext (hF x y)
  rw [this]; exact h

theorem fndsDec_sat {n k : Nat} {r0 : List Nat} {E F : Nat → Nat → Prop} {done : List Nat}
    {s : List Nat × List Nat × List Nat} (h : PInv n k r0 E done s) {p x : Nat} (hp : p < n)
    (hx : x < n) (hE : E p x) (hF : ∀ a b, F a b ↔ (E a b ∧ ¬ (a = p ∧ b = x))) :
    (fndsDec k s x).Sat (PInv n k r0 F done) := by
  have hxc : x < s.2.1.length := by rw [h.lenc]; exact hx
  have hxr : x < s.2.2.length := by rw [h.lenr]; exact hx
  have hcx : s.2.1[x] = inDeg n E x := by
    have := h.count x hx
    rw [List.getElem?_eq_getElem hxc] at this
    exact Option.some.inj this
  have hrem : inDeg n E x = inDeg n F x + 1 := by
    apply inDeg_remove hp hE
    intro y; rw [hF]; simp
  have hother : ∀ b, b ≠ x → inDeg n F b = inDeg n E b := by
    intro b hb
    apply inDeg_congr
    intro a _
    rw [hF]
    constructor
    · exact fun h => h.1
    · exact fun h => ⟨h, fun h' => hb h'.2⟩
  have hdec : dec64 s.2.1[x] = inDeg n F x := by
    rw [hcx, hrem]; simp [dec64]
  have hxnew : x ∉ done ++ s.1 := by
    intro hmem
    have := (h.zero x hx).mpr hmem
    omega
  have hcount : ∀ b, b < n → (s.2.1.set x (inDeg n F x))[b]? = some (inDeg n F b) := by
    intro b hb
    rw [List.getElem?_set]
    split
    · rename_i e; subst e; simp [hxc]
    · rename_i e
      rw [h.count b hb, hother b (fun e' => e e'.symm)]
  unfold fndsDec
  rw [modifyAt_of_lt hxc, bind_ok, hdec]
  have : Outcome.get (s.2.1.set x (inDeg n F x)) x = .ok (inDeg n F x) := by
    rw [get_eq_ok_iff, hcount x hx]
  rw [this, bind_ok]
  split
  · rename_i h0
    rw [set_of_lt hxr]
    simp only [bind_ok, pure_eq, sat_ok]
    refine ⟨by simp [h.lenc], by simp [h.lenr], hcount, ?_, ?_, ?_, ?_, ?_⟩
    · intro b hb
      rw [← List.append_assoc, List.mem_append] at hb
      rcases hb with hb | hb
      · exact h.lt b hb
      · rw [List.mem_singleton] at hb; subst hb; exact hx
    · show (done ++ (s.1 ++ [x])).Nodup
      rw [← List.append_assoc, List.nodup_append]
      refine ⟨h.nodup, by simp, ?_⟩
      intro a ha b hb e
      rw [List.mem_singleton] at hb
      subst hb e
      exact hxnew ha
    · intro b hb
      show inDeg n F b = 0 ↔ b ∈ done ++ (s.1 ++ [x])
      rw [← List.append_assoc, List.mem_append, List.mem_singleton]
      by_cases e : b = x
      · subst e; simp [h0]
      · rw [hother b e, h.zero b hb]; simp [e]
    · intro b hb
      show (s.2.2.set x (k + 1))[b]? = _
      rw [List.getElem?_set]
      split
      · rename_i e; subst e; simp [hxr]
      · rename_i e
        rw [List.mem_append, List.mem_singleton] at hb
        rcases hb with hb | hb
        · exact h.rnext b hb
        · exact absurd hb.symm e
    · intro b hb
      show (s.2.2.set x (k + 1))[b]? = _
      rw [List.getElem?_set]
      split
      · rename_i e; subst e
        exact absurd (List.mem_append_left _ hb) hxnew
      · exact h.rdone b hb
  · rename_i h0
    simp only [pure_eq, sat_ok]
    refine ⟨by simp [h.lenc], h.lenr, hcount, h.lt, h.nodup, ?_, h.rnext, h.rdone⟩
    intro b hb
    by_cases e : b = x
    · subst e
      constructor
      · exact fun h' => absurd h' h0
      · exact fun h' => absurd h' hxnew
    · rw [hother b e]; exact h.zero b hb

theorem fndsPass_sat {n k : Nat} {r0 : List Nat} {D : Nat → Nat → Prop}
    {dl : List (List Nat)} (hlen : dl.length = n)
    (hmem : ∀ (a : Nat) (l : List Nat), dl[a]? = some l → ∀ b, b ∈ l ↔ D a b)
    (hnd : ∀ (a : Nat) (l : List Nat), dl[a]? = some l → l.Nodup)
    (hD : ∀ a b, D a b → a < n ∧ b < n)
    {X cur cc rank : List Nat}
    (h : PInv n k r0 (fun a b => D a b ∧ a ∉ X) (X ++ cur) ([], cc, rank)) :
    (fndsPass dl k cur cc rank).Sat
      (PInv n k r0 (fun a b => D a b ∧ a ∉ X ++ cur) (X ++ cur)) := by
  unfold fndsPass
  have key := foldlM_sat (f := fun (s : List Nat × List Nat × List Nat) (p : Nat) => (do
      let l ← Outcome.get dl p
      l.foldlM (fndsDec k) s : Outcome _))
    (fun pre s => PInv n k r0 (fun a b => D a b ∧ a ∉ X ++ pre) (X ++ cur) s) cur []
    ([], cc, rank) ?_ ?_
  · simpa using key
  · exact h.congr (by simp)
  · intro ps p q s hcur hinv
    rw [List.nil_append] at hinv ⊢
    have hcurnd : (X ++ cur).Nodup := (List.nodup_append.mp h.nodup).1
    have hpX : p ∉ X ++ ps := by
      rw [hcur] at hcurnd
      have h1 : (X ++ ps ++ (p :: q)).Nodup := by simpa using hcurnd
      have := (List.nodup_append.mp h1).2.2
      intro hp
      exact this p hp p (by simp) rfl
    have hp : p < n := h.lt p (by simp [hcur])
    have hp' : p < dl.length := by rw [hlen]; exact hp
    rw [get_of_lt hp', bind_ok]
    have hm := hmem p dl[p] (List.getElem?_eq_getElem hp')
    have hn := hnd p dl[p] (List.getElem?_eq_getElem hp')
    generalize dl[p] = l at hm hn
    have inner := foldlM_sat (f := fndsDec k)
      (fun pre s => PInv n k r0 (fun a b => (D a b ∧ a ∉ X ++ ps) ∧ ¬ (a = p ∧ b ∈ pre))
        (X ++ cur) s) l [] s (hinv.congr (by simp)) ?_
    · refine inner.mono ?_
      intro s' h'
      refine h'.congr ?_
      intro a b
      simp only [List.nil_append, List.mem_append, List.mem_singleton, not_or, hm]
      constructor
      · rintro ⟨h1, h2, h3, h4⟩
        exact ⟨⟨h1, h2, h3⟩, fun h => h4 h.1⟩
      · rintro ⟨⟨h1, h2, h3⟩, h4⟩
        refine ⟨h1, h2, h3, fun e => h4 ⟨e, e ▸ h1⟩⟩
    · intro pre x post s' hl h'
      rw [List.nil_append] at h' ⊢
      have hxD : D p x := (hm x).mp (by rw [hl]; simp)
      have hxpre : x ∉ pre := by
        rw [hl] at hn
        intro hx
        exact (List.nodup_append.mp hn).2.2 x hx x (by simp) rfl
      refine fndsDec_sat h' hp (hD p x hxD).2 ⟨⟨hxD, hpX⟩, fun h => hxpre h.2⟩ ?_
      intro a b
      simp only [List.mem_append, List.mem_singleton]
      constructor
      · rintro ⟨h1, h2⟩
        exact ⟨⟨h1, fun h => h2 ⟨h.1, Or.inl h.2⟩⟩, fun h => h2 ⟨h.1, Or.inr h.2⟩⟩
      · rintro ⟨⟨h1, h2⟩, h3⟩
        refine ⟨h1, ?_⟩
        rintro ⟨h4, h5 | h5⟩
        · exact h2 ⟨h4, h5⟩
        · exact h3 ⟨h4, h5⟩

/-- A set containing every index all of whose dominators it contains is everything. -/
theorem exhaust {n : Nat} {D : Nat → Nat → Prop} (irr : ∀ a, ¬ D a a)
    (tr : ∀ a b c, D a b → D b c → D a c) (S : Nat → Prop)
    (h : ∀ b, b < n → ¬ S b → ∃ a, a < n ∧ ¬ S a ∧ D a b) : ∀ b, b < n → S b := by
  have aux : ∀ m b, b < n → inDeg n D b ≤ m → S b := by
    intro m
    induction m with
    | zero =>
      intro b hb hm
      by_contra hS
      obtain ⟨a, ha, _, hab⟩ := h b hb hS
      exact (inDeg_zero_iff.mp (Nat.le_zero.mp hm)) a ha hab
    | succ m ih =>
      intro b hb hm
      by_contra hS
      obtain ⟨a, ha, hSa, hab⟩ := h b hb hS
      refine hSa (ih a ha ?_)
      have : inDeg n D a < inDeg n D b := by
        classical
        unfold inDeg
        apply Finset.card_lt_card
        rw [Finset.ssubset_iff_of_subset]
        · refine ⟨a, ?_, ?_⟩
          · simpa [ha] using hab
          · simp [irr a]
        · intro x hx
          simp only [Finset.mem_filter, Finset.mem_range] at hx ⊢
          exact ⟨hx.1, tr x a b hx.2 hab⟩
      omega
  intro b hb
  exact aux _ b hb (le_refl _)

/-- What is known about the list of fronts found so far. -/
structure Lay (n : Nat) (D : Nat → Nat → Prop) (fronts : List (List Nat)) (rank : List Nat) :
    Prop where
  lt : ∀ i ∈ fronts.flatten, i < n
  nodup : fronts.flatten.Nodup
  ne : ∀ f ∈ fronts, f ≠ []
  rank : ∀ (m : Nat) (f : List Nat), fronts[m]? = some f → ∀ i ∈ f, rank[i]? = some m
  dom : ∀ (m : Nat) (f : List Nat), fronts[m]? = some f → ∀ i ∈ f, ∀ j, D j i →
    ∃ (m' : Nat) (f' : List Nat), m' < m ∧ fronts[m']? = some f' ∧ j ∈ f'
  prev : ∀ (m : Nat) (f g : List Nat), fronts[m + 1]? = some f → fronts[m]? = some g → ∀ i ∈ f,
    ∃ j ∈ g, D j i

theorem fndsPeel_sat {n : Nat} {D : Nat → Nat → Prop} {dl : List (List Nat)} (hlen : dl.length = n)
    (hmem : ∀ (a : Nat) (l : List Nat), dl[a]? = some l → ∀ b, b ∈ l ↔ D a b)
    (hnd : ∀ (a : Nat) (l : List Nat), dl[a]? = some l → l.Nodup)
    (hD : ∀ a b, D a b → a < n ∧ b < n)
    (irr : ∀ a, ¬ D a a) (tr : ∀ a b c, D a b → D b c → D a c) :
    ∀ (fuel k : Nat) (cur cc rank : List Nat) (prev : List (List Nat)),
      prev.length = k → n < prev.flatten.length + fuel →
      PInv n k rank (fun a b => D a b ∧ a ∉ prev.flatten) (prev.flatten ++ cur) ([], cc, rank) →
      Lay n D (if cur = [] then prev else prev ++ [cur]) rank →
      (fndsPeel dl fuel k cur cc rank (if cur = [] then prev else prev ++ [cur])).Sat
        (fun r => Lay n D r.1 r.2 ∧ r.2.length = n ∧ ∀ b, b < n → b ∈ r.1.flatten) := by
  intro fuel
  induction fuel with
  | zero =>
    intro k cur cc rank prev hk hfuel hP hL
    exfalso
    have h1 : prev.flatten.Nodup :=
      (List.nodup_append.mp ((List.nodup_append.mp hP.nodup).1)).1
    have h2 : prev.flatten ⊆ List.range n := by
      intro b hb
      rw [List.mem_range]
      exact hP.lt b (by simp only [List.mem_append]; exact Or.inl (Or.inl hb))
    have := (List.Nodup.subperm h1 h2).length_le
    simp only [List.length_range] at this
    omega
  | succ fuel ih =>
    intro k cur cc rank prev hk hfuel hP hL
    unfold fndsPeel
    split
    · rename_i hcur
      subst hcur
      simp only [if_true] at hL ⊢
      rw [Outcome.sat_pure]
      refine ⟨hL, by simpa using hP.lenr, ?_⟩
      apply exhaust irr tr (fun b => b ∈ prev.flatten)
      intro b hb hbn
      have hz := hP.zero b hb
      have : inDeg n (fun a b => D a b ∧ a ∉ prev.flatten) b ≠ 0 := by
        intro h0
        have := hz.mp h0
        simp only [List.append_nil] at this
        exact hbn this
      rw [Ne, inDeg_zero_iff] at this
      push Not at this
      obtain ⟨a, ha, h1, h2⟩ := this
      exact ⟨a, ha, h2, h1⟩
    · rename_i hcur
      simp only [if_neg hcur] at hL ⊢
      have hflat : (prev ++ [cur]).flatten = prev.flatten ++ cur := by simp
      refine (fndsPass_sat hlen hmem hnd hD hP).bind ?_
      rintro ⟨next, cc', rank'⟩ h
      have hrank_old : ∀ b ∈ prev.flatten ++ cur, rank'[b]? = rank[b]? := h.rdone
      -- the new layering
      have hL' : Lay n D (if next = [] then prev ++ [cur] else (prev ++ [cur]) ++ [next]) rank' := by
        have hbase : Lay n D (prev ++ [cur]) rank' := by
          refine ⟨hL.lt, hL.nodup, hL.ne, ?_, hL.dom, hL.prev⟩
          intro m f hf i hi
          rw [hrank_old i ?_]
          · exact hL.rank m f hf i hi
          · rw [← hflat]
            exact List.mem_flatten.mpr ⟨f, List.mem_of_getElem? hf, hi⟩
        split
        · exact hbase
        · rename_i hnext
          have hlen' : (prev ++ [cur]).length = k + 1 := by simp [hk]
          have hget : ∀ (m : Nat) (f : List Nat),
              ((prev ++ [cur]) ++ [next])[m]? = some f ↔
                ((prev ++ [cur])[m]? = some f ∨ (m = k + 1 ∧ f = next)) := by
            intro m f
            rw [List.getElem?_append]
            split
            · rename_i hm
              constructor
              · exact Or.inl
              · rintro (h | ⟨h, _⟩)
                · exact h
                · omega
            · rename_i hm
              have hN : (prev ++ [cur])[m]? = none := List.getElem?_eq_none (by omega)
              rw [hN]
              by_cases e : m = k + 1
              · subst e
                rw [hlen', Nat.sub_self]
                simp [eq_comm]
              · have hN2 : [next][m - (prev ++ [cur]).length]? = none :=
                  List.getElem?_eq_none (by simp only [List.length_singleton]; omega)
                rw [hN2]
                simp [e]
          have hflat2 : ((prev ++ [cur]) ++ [next]).flatten = prev.flatten ++ cur ++ next := by simp
          refine ⟨?_, ?_, ?_, ?_, ?_, ?_⟩
          · intro i hi
            rw [hflat2] at hi
            exact h.lt i hi
          · rw [hflat2]; exact h.nodup
          · intro f hf
            rw [List.mem_append, List.mem_singleton] at hf
            rcases hf with hf | hf
            · exact hbase.ne f hf
            · rw [hf]; exact hnext
          · intro m f hf i hi
            rcases (hget m f).mp hf with hf | ⟨rfl, rfl⟩
            · exact hbase.rank m f hf i hi
            · exact h.rnext i hi
          · intro m f hf i hi j hj
            rcases (hget m f).mp hf with hf | ⟨rfl, rfl⟩
            · obtain ⟨m', f', h1, h2, h3⟩ := hbase.dom m f hf i hi j hj
              exact ⟨m', f', h1, (hget m' f').mpr (Or.inl h2), h3⟩
            · have hin : i < n := (hD j i hj).2
              have hjn : j < n := (hD j i hj).1
              have hz := (h.zero i hin).mpr (List.mem_append_right _ hi)
              rw [inDeg_zero_iff] at hz
              have hz := hz j hjn
              have hjm : j ∈ (prev ++ [cur]).flatten := by
                rw [hflat]; by_contra hc; exact hz ⟨hj, hc⟩
              obtain ⟨f', hf', hjf⟩ := List.mem_flatten.mp hjm
              obtain ⟨m', hm', rfl⟩ := List.getElem_of_mem hf'
              refine ⟨m', _, ?_, (hget m' _).mpr (Or.inl (List.getElem?_eq_getElem hm')), hjf⟩
              omega
          · intro m f g hf hg i hi
            rcases (hget (m + 1) f).mp hf with hf | ⟨hm, rfl⟩
            · rcases (hget m g).mp hg with hg | ⟨hm', _⟩
              · exact hbase.prev m f g hf hg i hi
              · have := (List.getElem?_eq_some_iff.mp hf).1
                omega
            · have hm : m = k := by omega
              subst hm
              have hgc : g = cur := by
                rcases (hget m g).mp hg with hg | ⟨hm', _⟩
                · rw [List.getElem?_append_right (by omega)] at hg
                  simp [hk] at hg
                  exact hg.symm
                · omega
              subst hgc
              have hin : i < n := h.lt i (List.mem_append_right _ hi)
              have hnot : i ∉ prev.flatten ++ g := by
                intro hc
                exact (List.nodup_append.mp h.nodup).2.2 i hc i hi rfl
              have h1 : inDeg n (fun a b => D a b ∧ a ∉ prev.flatten) i ≠ 0 := by
                intro h0
                have := (hP.zero i hin).mp h0
                simp only [List.append_nil] at this
                exact hnot this
              rw [Ne, inDeg_zero_iff] at h1
              push Not at h1
              obtain ⟨a, ha, h1, h2⟩ := h1
              have hz := (h.zero i hin).mpr (List.mem_append_right _ hi)
              rw [inDeg_zero_iff] at hz
              have hz := hz a ha
              have : a ∈ prev.flatten ++ g := by by_contra hc; exact hz ⟨h1, hc⟩
              rcases List.mem_append.mp this with h3 | h3
              · exact absurd h3 h2
              · exact ⟨a, h3, h1⟩
      have hcl : 0 < cur.length := List.length_pos_iff.mpr hcur
      have := ih (k + 1) next cc' rank' (prev ++ [cur]) (by simp [hk])
        (by rw [hflat, List.length_append]; omega) ?_ hL'
      · exact this
      · rw [hflat]
        refine ⟨h.lenc, h.lenr, h.count, ?_, ?_, ?_, by simp, by simp⟩
        · simpa using h.lt
        · simpa using h.nodup
        · simpa using h.zero

theorem fndsFirst_sat {n : Nat} {dc rank : List Nat} (h1 : dc.length = n) (h2 : rank = List.replicate n 0) :
    (fndsFirst n dc rank).Sat (fun r => r.2 = rank ∧
      r.1 = (List.range n).filter (fun i => dc[i]? = some 0)) := by
  unfold fndsFirst
  have := range_sat (f := fun (s : List Nat × List Nat) i => (do
    let c ← Outcome.get dc i
    if c = 0 then
      let r ← Outcome.set s.2 i 0
      pure (s.1 ++ [i], r)
    else pure s : Outcome _)) (fun i s => s.2 = rank ∧
      s.1 = (List.range i).filter (fun i => dc[i]? = some 0)) n ([], rank) (by simp) ?_
  · exact this
  · rintro i ⟨f, r⟩ hi ⟨hr, hf⟩
    simp only at hf hr ⊢
    subst hr
    have hi' : i < dc.length := by omega
    rw [get_of_lt hi', bind_ok]
    split
    · rename_i h0
      rw [set_of_lt (by rw [h2]; simpa using hi)]
      simp only [bind_ok, pure_eq, sat_ok]
      refine ⟨?_, ?_⟩
      · rw [h2]
        apply List.ext_getElem?
        intro m
        rw [List.getElem?_set]
        split
        · rename_i e; subst e; simp [hi]
        · rfl
      · rw [List.range_succ, List.filter_append, ← hf]
        simp [List.getElem?_eq_getElem hi', h0]
    · rename_i h0
      simp only [pure_eq, sat_ok]
      refine ⟨trivial, ?_⟩
      rw [List.range_succ, List.filter_append, ← hf]
      simp [List.getElem?_eq_getElem hi', h0]

/-- Main helper: outcome of `fast_non_dominated_sorting` on well formed input. -/
theorem fnds_sat {pts : List (List (Fl K))} (hn : 2 ≤ pts.length) (hs : SameLength pts) :
    (fnds pts).Sat (fun t =>
      Rep pts.length (DomIdx pts) (t.domList, t.domCount) ∧
      Lay pts.length (DomIdx pts) t.fronts t.rank ∧ t.rank.length = pts.length ∧
      ∀ b, b < pts.length → b ∈ t.fronts.flatten) := by
  unfold fnds
  rw [if_neg (by omega)]
  refine (fndsBuild_sat hs).bind ?_
  rintro ⟨dl, dc⟩ hR
  refine (fndsFirst_sat hR.len2 rfl).bind ?_
  rintro ⟨f0, rank⟩ ⟨hr, hf0⟩
  simp only at hr hf0
  have hD : ∀ a b, DomIdx pts a b → a < pts.length ∧ b < pts.length := by
    rintro a b ⟨h1, h2, _⟩; exact ⟨h1, h2⟩
  have hc : ∀ b, b < pts.length → dc[b]? = some (inDeg pts.length (DomIdx pts) b) := by
    intro b hb
    have hb' : b < dc.length := by rw [hR.len2]; exact hb
    rw [List.getElem?_eq_getElem hb']
    exact congrArg some (hR.count b _ (List.getElem?_eq_getElem hb'))
  have hmem0 : ∀ b, b ∈ f0 ↔ b < pts.length ∧ inDeg pts.length (DomIdx pts) b = 0 := by
    intro b
    rw [hf0, List.mem_filter, List.mem_range]
    constructor
    · rintro ⟨h1, h2⟩
      have := hc b h1
      simp only [decide_eq_true_eq] at h2
      rw [this] at h2
      exact ⟨h1, Option.some.inj h2⟩
    · rintro ⟨h1, h2⟩
      exact ⟨h1, by rw [decide_eq_true_eq, hc b h1, h2]⟩
  have hne : f0 ≠ [] := by
    intro he
    have := exhaust (n := pts.length) (domIdx_irrefl pts) (fun a b c => domIdx_trans)
      (fun _ => False) ?_ 0 (by omega)
    · exact this
    · intro b hb _
      have : ¬ inDeg pts.length (DomIdx pts) b = 0 := by
        intro h0
        have := (hmem0 b).mpr ⟨hb, h0⟩
        rw [he] at this; cases this
      rw [inDeg_zero_iff] at this
      push Not at this
      obtain ⟨a, ha, h⟩ := this
      exact ⟨a, ha, not_false, h⟩
  have hnd0 : f0.Nodup := by rw [hf0]; exact (List.nodup_range).filter _
  have peel := fndsPeel_sat hR.len1 hR.mem hR.nodup hD (domIdx_irrefl pts)
    (fun a b c => domIdx_trans) (pts.length + 1) 0 f0 dc rank [] rfl (by simp) ?_ ?_
  · rw [if_neg hne] at peel
    simp only [List.nil_append] at peel
    refine peel.bind ?_
    rintro ⟨fronts, rank'⟩ ⟨h1, h2, h3⟩
    simp only [pure_eq, sat_ok]
    exact ⟨hR, h1, h2, h3⟩
  · refine ⟨hR.len2, by simp [hr], ?_, ?_, ?_, ?_, by simp, by simp⟩
    · intro b hb
      rw [show (([] : List Nat), dc, rank).2.1 = dc from rfl, hc b hb]
      congr 1
      apply inDeg_congr
      simp
    · intro b hb
      simp only [List.flatten_nil, List.nil_append, List.append_nil] at hb
      exact ((hmem0 b).mp hb).1
    · simpa using hnd0
    · intro b hb
      simp only [List.flatten_nil, List.nil_append, List.append_nil, List.not_mem_nil, not_false_iff, and_true]
      rw [hmem0]
      exact ⟨fun h => ⟨hb, h⟩, fun h => h.2⟩
  · rw [if_neg hne]
    refine ⟨?_, by simpa using hnd0, by simpa using hne, ?_, ?_, ?_⟩
    · intro i hi
      exact ((hmem0 i).mp (by simpa using hi)).1
    · intro m f hf i hi
      cases m with
      | zero =>
        simp at hf
        subst hf
        rw [hr, List.getElem?_replicate, if_pos ((hmem0 i).mp hi).1]
      | succ m => simp at hf
    · intro m f hf i hi j hj
      exfalso
      cases m with
      | zero =>
        simp at hf
        subst hf
        have := ((hmem0 i).mp hi).2
        rw [inDeg_zero_iff] at this
        exact this j (hD j i hj).1 hj
      | succ m => simp at hf
    · intro m f g hf
      simp at hf

end Verif.MO
