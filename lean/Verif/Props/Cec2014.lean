import Verif.Proof.Cec2014Spec
import Mathlib.Tactic.IntervalCases

/-!
# Properties of `cec2014`: C153 (shape), C154 (formulas), C155 (minimum)

Every theorem holds for all tables of shifts, matrices and shuffles with as many rows as the problem has components.
-/

set_option autoImplicit false

namespace Verif.Props

open Verif Verif.Spec
open Verif.Cec13 (entry acc)
open Verif.Cec14 (Fn Hyb Leaf Part Comp)

/-- the problems that shuffle the variables -/
def C14Hybrid (id : Nat) : Prop := (17 ≤ id ∧ id ≤ 22) ∨ 29 ≤ id

/-- an object made by the constructor, tables with enough rows, and a point of the right length -/
structure Cec14Ready (md : Nat → Nat → List ℝ) (sd : Nat → List ℝ) (hd : Nat → Nat → List Int) (id dim : Nat) (c : Cec14.Ctx) (x : List ℝ) : Prop where
  made : Cec14.construct md sd hd id dim = .ok c
  shifts : 100 * c14Rows id ≤ (sd id).length
  mats : c14Rows id * (dim * dim) ≤ (md id dim).length
  shuf : C14Hybrid id → c14Rows id * dim ≤ (hd id dim).length
  perm : C14Hybrid id → ∀ s ∈ hd id dim, 1 ≤ s ∧ s ≤ dim
  point : x.length = dim

/-! ## C153 -/

/-- C153: which dimensions and ids the constructor accepts -/
theorem C153_construct (md : Nat → Nat → List ℝ) (sd : Nat → List ℝ) (hd : Nat → Nat → List Int) (id dim : Nat) :
    ((dim ∈ [2, 10, 20, 30, 50, 100] ∧ 1 ≤ id ∧ id ≤ 30 ∧ (dim = 2 → id ≤ 16 ∨ (23 ≤ id ∧ id ≤ 28))) →
        ∃ c, Cec14.construct md sd hd id dim = .ok c ∧ c.nx = dim) ∧
      (¬(dim ∈ [2, 10, 20, 30, 50, 100] ∧ 1 ≤ id ∧ id ≤ 30 ∧ (dim = 2 → id ≤ 16 ∨ (23 ≤ id ∧ id ≤ 28))) →
        Cec14.construct md sd hd id dim = .throws .invalidArgument) := by
  simp only [List.mem_cons, List.not_mem_nil, or_false]
  unfold Cec14.construct
  constructor
  · rintro ⟨h1, h2, h3, h4⟩
    rw [if_neg (not_not.2 h1), if_neg (by omega), if_neg (by omega)]
    exact ⟨_, rfl, rfl⟩
  · intro h
    by_cases h1 : ¬(dim = 2 ∨ dim = 10 ∨ dim = 20 ∨ dim = 30 ∨ dim = 50 ∨ dim = 100)
    · rw [if_pos h1]
    · rw [if_neg h1]
      by_cases h2 : id < 1 ∨ 30 < id
      · rw [if_pos h2]
      · rw [if_neg h2, if_pos]
        by_contra h3
        exact h ⟨not_not.1 h1, by omega, by omega, by omega⟩

example (md : Nat → Nat → List ℝ) (hd : Nat → Nat → List Int) : Cec14.construct md (fun _ => [1, 2, 3]) hd 3 2 = .ok ⟨2, [1, 2], md 3 2, []⟩ := rfl

example (md : Nat → Nat → List ℝ) (sd : Nat → List ℝ) (hd : Nat → Nat → List Int) : Cec14.construct md sd hd 17 2 = .throws .invalidArgument := rfl

theorem cec14_construct {md : Nat → Nat → List ℝ} {sd : Nat → List ℝ} {hd : Nat → Nat → List Int} {id dim : Nat} {c : Cec14.Ctx}
    (h : Cec14.construct md sd hd id dim = .ok c) :
    2 ≤ dim ∧ dim ≤ 100 ∧ 1 ≤ id ∧ id ≤ 30 ∧ (C14Hybrid id → ∃ t, dim = 10 * t) ∧ c.nx = dim ∧ c.os = Cec14.eraseTail dim 0 (sd id) ∧
      c.mr = md id dim ∧ (C14Hybrid id → c.sh = hd id dim) := by
  unfold Cec14.construct at h
  by_cases h1 : ¬(dim = 2 ∨ dim = 10 ∨ dim = 20 ∨ dim = 30 ∨ dim = 50 ∨ dim = 100)
  · rw [if_pos h1] at h; exact absurd h (by simp)
  · rw [if_neg h1] at h
    by_cases h2 : id < 1 ∨ 30 < id
    · rw [if_pos h2] at h; exact absurd h (by simp)
    · rw [if_neg h2] at h
      by_cases h3 : dim = 2 ∧ ((17 ≤ id ∧ id ≤ 22) ∨ (29 ≤ id ∧ id ≤ 30))
      · rw [if_pos h3] at h; exact absurd h (by simp)
      · rw [if_neg h3] at h
        injection h with h
        subst h
        refine ⟨by omega, by omega, by omega, by omega, ?_, rfl, rfl, rfl, ?_⟩
        · intro hh
          unfold C14Hybrid at hh
          exact ⟨dim / 10, by omega⟩
        · intro hh
          unfold C14Hybrid at hh
          exact if_pos (by omega)

/-- C153: the box -/
theorem C153_bounds {md : Nat → Nat → List ℝ} {sd : Nat → List ℝ} {hd : Nat → Nat → List Int} {id dim : Nat} {c : Cec14.Ctx}
    (h : Cec14.construct md sd hd id dim = .ok c) :
    (Cec14.bounds c).1.length = dim ∧ (Cec14.bounds c).2.length = dim ∧ (∀ l ∈ (Cec14.bounds c).1, l = -100) ∧ (∀ u ∈ (Cec14.bounds c).2, u = 100) := by
  obtain ⟨-, -, -, -, -, e, -⟩ := cec14_construct h
  refine ⟨by simp [Cec14.bounds, e], by simp [Cec14.bounds, e], fun l hl => ?_, fun u hu => ?_⟩
  · exact List.eq_of_mem_replicate hl
  · exact List.eq_of_mem_replicate hu

/-- C153: the shifts kept are the first `dim` numbers of each row of 100 of the table -/
theorem C153_shifts {md : Nat → Nat → List ℝ} {sd : Nat → List ℝ} {hd : Nat → Nat → List Int} {id dim : Nat} {c : Cec14.Ctx}
    (h : Cec14.construct md sd hd id dim = .ok c) (k : Nat) (hk : 100 * (k + 1) ≤ (sd id).length) :
    (k + 1) * dim ≤ c.os.length ∧ ∀ i < dim, c.os.getD (k * dim + i) 0 = (sd id).getD (k * 100 + i) 0 := by
  obtain ⟨-, h100, -, -, -, -, e, -⟩ := cec14_construct h
  rw [e]
  exact cec14_shifts h100 (sd id) 0 k hk

theorem cec14_rows_pos (id : Nat) : 1 ≤ c14Rows id := by
  unfold c14Rows
  split
  · exact le_rfl
  · split <;> norm_num

theorem cec14_env {md : Nat → Nat → List ℝ} {sd : Nat → List ℝ} {hd : Nat → Nat → List Int} {id dim : Nat} {c : Cec14.Ctx} {x : List ℝ}
    (h : Cec14Ready md sd hd id dim c x) : C14Env (C14Hybrid id) (c14Rows id) c x := by
  obtain ⟨h2, h100, -, -, ht, e1, e2, e3, e4⟩ := cec14_construct h.made
  have hr := cec14_rows_pos id
  refine ⟨by omega, by rw [e1, h.point], ?_, by rw [e1, e3]; exact h.mats, fun hh => by rw [e1]; exact ht hh, fun hh => by rw [e1, e4 hh]; exact h.shuf hh,
    fun hh => by rw [e1, e4 hh]; exact h.perm hh⟩
  obtain ⟨k, hk⟩ : ∃ k, c14Rows id = k + 1 := ⟨c14Rows id - 1, by omega⟩
  rw [e1, hk]
  exact (C153_shifts h.made k (by rw [← hk]; exact h.shifts)).1

theorem cec14_shiftRow {md : Nat → Nat → List ℝ} {sd : Nat → List ℝ} {hd : Nat → Nat → List Int} {id dim : Nat} {c : Cec14.Ctx} {x : List ℝ}
    (h : Cec14Ready md sd hd id dim c x) {k : Nat} (hk : k < c14Rows id) : ∀ j < c.nx, c.os.getD (k * c.nx + j) 0 = c14Shift (sd id) k j := by
  obtain ⟨-, -, -, -, -, e1, -⟩ := cec14_construct h.made
  rw [e1]
  exact (C153_shifts h.made k (by have := h.shifts; omega)).2

/-! ## C154 -/

theorem cec14_at {md : Nat → Nat → List ℝ} {sd : Nat → List ℝ} {hd : Nat → Nat → List Int} {id dim : Nat} {c : Cec14.Ctx} {x : List ℝ}
    (h : Cec14Ready md sd hd id dim c x) {k : Nat} (hk : k < c14Rows id) (r : Bool) {l : Leaf} {L : C14Leaf} (hl : C14LeafIs (C14Hybrid id) l L) :
    cec14Val c x L r k = c14At L r dim (sd id) (md id dim) (hd id dim) k x := by
  obtain ⟨-, -, -, -, -, e1, -, e3, e4⟩ := cec14_construct h.made
  have hw : cec14W c c.nx (k * c.nx) (k * c.nx * c.nx) true r x
      = c13Mul dim (c13Mat r dim (md id dim) k) (fun i => x.getD i 0 - c14Shift (sd id) k i) := by
    unfold cec14W
    have em : (if r = true then fun i j => entry c.mr (k * c.nx * c.nx + (i * c.nx + j)) else c13Id) = c13Mat r dim (md id dim) k := by
      funext i j
      unfold c13Mat
      cases r
      · rfl
      · simp only [if_true]
        rw [e1, e3, show k * dim * dim + (i * dim + j) = (k * dim + i) * dim + j by ring]
        rfl
    rw [em, e1]
    funext i
    refine cec13_mulCongr (fun j hj => ?_) i
    simp only [if_true]
    have := cec14_shiftRow h hk j (by rw [e1]; exact hj)
    rw [e1] at this
    unfold entry
    rw [this]
  unfold cec14Val c14At
  rw [hw]
  cases hl with
  | basic _ => rw [e1]; rfl
  | hybrid hh _ _ => rw [e1, e4 hh]; rfl

theorem cec14_biases {id : Nat} (h1 : 1 ≤ id) (h2 : id ≤ 30) : entry Cec14.biases (id - 1) = 100 * (id : ℝ) := by
  interval_cases id <;> norm_num [entry, Cec14.biases]

theorem cec14_leafMono {p q : Prop} (hpq : p → q) {l : Leaf} {L : C14Leaf} (h : C14LeafIs p l L) : C14LeafIs q l L := by
  cases h with
  | basic h => exact .basic h
  | hybrid hh H hs => exact .hybrid (hpq hh) H hs

theorem cec14_singleAt {id : Nat} (h1 : 1 ≤ id) {L : C14Leaf} {rot : Bool} (hg : c14Singles[id - 1]? = some (L, rot)) :
    ∃ l, Cec14.singles[id - 1]? = some (l, rot) ∧ C14LeafIs (C14Hybrid id) l L ∧ id ≤ 22 := by
  have hid : id - 1 < 22 := by
    by_contra hk
    rw [List.getElem?_eq_none (by simp [c14Singles]; omega)] at hg
    cases hg
  obtain ⟨⟨l, r⟩, hp, hl, e⟩ := cec14_singlesS (id - 1) _ hg
  simp only at hl e
  subst e
  exact ⟨l, hp, cec14_leafMono (fun h => Or.inl (by omega)) hl, by omega⟩

/-- C154: the problems 1 to 22 are the functions of the specification -/
theorem C154_single {md : Nat → Nat → List ℝ} {sd : Nat → List ℝ} {hd : Nat → Nat → List Int} {id dim : Nat} {c : Cec14.Ctx} {x : List ℝ}
    (h : Cec14Ready md sd hd id dim c x) (L : C14Leaf) (rot : Bool) (hg : c14Singles[id - 1]? = some (L, rot)) :
    Cec14.fitness id c x = .ok [c14At L rot dim (sd id) (md id dim) (hd id dim) 0 x + 100 * id] := by
  obtain ⟨-, -, h1, h2, -⟩ := cec14_construct h.made
  obtain ⟨l, hp, hl, -⟩ := cec14_singleAt h1 hg
  have hr := cec14_rows_pos id
  have e := cec14_leaf (cec14_env h) (show 0 < c14Rows id by omega) rot hl
  have e' : l.run c 0 rot x = .ok (cec14Val c x L rot 0) := e
  rw [cec14_at h (by omega) rot hl] at e'
  have hb := cec14_biases h1 h2
  obtain ⟨k, rfl⟩ : ∃ k, id = k + 1 := ⟨id - 1, by omega⟩
  rw [Nat.add_sub_cancel] at hp hb
  simp only [Cec14.fitness, hp, e', Outcome.bind_ok, hb]

theorem cec14_forall2 {α β : Type} {R : α → β → Prop} {l : List α} {m : List β} (h : List.Forall₂ R l m) : ∀ b ∈ m, ∃ a, R a b := by
  induction h with
  | nil => simp
  | cons hab _ ih =>
    intro b hb
    rcases List.mem_cons.1 hb with rfl | hb
    · exact ⟨_, hab⟩
    · exact ih b hb

/-- C154: the problems 23 to 30 are weighted means of functions of the specification -/
theorem C154_composition {md : Nat → Nat → List ℝ} {sd : Nat → List ℝ} {hd : Nat → Nat → List Int} {id dim : Nat} {c : Cec14.Ctx} {x : List ℝ}
    (h : Cec14Ready md sd hd id dim c x) (hid : 23 ≤ id) (ps : List C14Part) (hg : c14Comps[id - 23]? = some ps) :
    Cec14.fitness id c x = .ok [c14Comp ps dim (sd id) (md id dim) (hd id dim) x + 100 * id] := by
  obtain ⟨-, -, h1, h2, -, e1, -⟩ := cec14_construct h.made
  have hb := cec14_biases h1 h2
  obtain ⟨k, rfl⟩ : ∃ k, id = k + 22 + 1 := ⟨id - 23, by omega⟩
  rw [show k + 22 + 1 - 23 = k by omega] at hg
  rw [Nat.add_sub_cancel] at hb
  obtain ⟨q, hq, H, hd', hb', hne, hrows, hk⟩ := cec14_compsS k _ hg
  have hrows' : ps.length = c14Rows (k + 22 + 1) := hrows
  have hyb : ∀ p ∈ ps, ∃ l, C14LeafIs (C14Hybrid (k + 22 + 1)) l p.1 := by
    intro p hp
    obtain ⟨a, ha⟩ := cec14_forall2 H p hp
    exact ⟨a.leaf, cec14_leafMono (fun h => Or.inr (by omega)) ha.leaf⟩
  have H' : List.Forall₂ (C14PartIs (C14Hybrid (k + 22 + 1))) q.parts ps :=
    H.imp (fun a b hab => ⟨cec14_leafMono (fun h => Or.inr (by omega)) hab.leaf, hab.flag, hab.scale⟩)
  have hc := cec14_compS (by rw [hrows']; exact cec14_env h) H' hne
  have hv : (∑ i ∈ Finset.range ps.length, Cec14.weight c x (entry q.delta i) i *
          (entry (ps.zipIdx.map (fun q => q.1.2.2.1 * cec14Val c x q.1.1 q.1.2.1 q.2)) i + entry q.bias i))
        / ∑ i ∈ Finset.range ps.length, Cec14.weight c x (entry q.delta i) i
      = c14Comp ps dim (sd (k + 22 + 1)) (md (k + 22 + 1) dim) (hd (k + 22 + 1) dim) x := by
    have hw (i : Nat) (hi : i < ps.length) : Cec14.weight c x (entry q.delta i) i = c14W dim (sd (k + 22 + 1)) x (ps[i], i) := by
      rw [cec14_weightS c x _ i (cec14_shiftRow h (by omega)), hd', cec13_entryMap _ _ hi, e1]
      rfl
    unfold c14Comp
    refine congrArg₂ _ ?_ ?_
    · refine cec13_sumList ps 0 _ _ (fun i hi => ?_)
      obtain ⟨l, hl⟩ := hyb ps[i] (List.getElem_mem hi)
      rw [cec13_entryMap _ _ (by simpa using hi), hb', cec13_entryMap _ _ hi, hw i hi, Nat.zero_add]
      simp only [List.getElem_zipIdx, Nat.zero_add]
      rw [cec14_at h (by omega) _ hl]
    · refine cec13_sumList ps 0 _ _ (fun i hi => ?_)
      rw [hw i hi, Nat.zero_add]
  rw [hv] at hc
  have hn : Cec14.singles[k + 22]? = none := List.getElem?_eq_none (by simp [Cec14.singles])
  simp only [Cec14.fitness, hn, Nat.add_sub_cancel, hq, hc, Outcome.bind_ok, hb]

/-- C154: every problem is covered by one of the two theorems -/
theorem C154_all {id : Nat} (h1 : 1 ≤ id) (h2 : id ≤ 30) :
    (∃ L rot, c14Singles[id - 1]? = some (L, rot)) ∨ (23 ≤ id ∧ ∃ ps, c14Comps[id - 23]? = some ps) := by
  by_cases h : id ≤ 22
  · left
    obtain ⟨s, hs⟩ : ∃ s, c14Singles[id - 1]? = some s := ⟨_, List.getElem?_eq_getElem (by simp [c14Singles]; omega)⟩
    exact ⟨s.1, s.2, hs⟩
  · right
    obtain ⟨s, hs⟩ : ∃ s, c14Comps[id - 23]? = some s := ⟨_, List.getElem?_eq_getElem (by simp [c14Comps]; omega)⟩
    exact ⟨by omega, s, hs⟩

/-- C153: the fitness is one number, whatever the tables contain -/
theorem C153_fitness {md : Nat → Nat → List ℝ} {sd : Nat → List ℝ} {hd : Nat → Nat → List Int} {id dim : Nat} {c : Cec14.Ctx} {x : List ℝ}
    (h : Cec14Ready md sd hd id dim c x) : ∃ v, Cec14.fitness id c x = .ok [v] := by
  obtain ⟨-, -, h1, h2, -⟩ := cec14_construct h.made
  rcases C154_all h1 h2 with ⟨L, rot, hg⟩ | ⟨hid, ps, hg⟩
  · exact ⟨_, C154_single h L rot hg⟩
  · exact ⟨_, C154_composition h hid ps hg⟩

/-! ## C155 -/

/-- a leaf whose functions have the floor `e` -/
inductive C14LeafFloor (e : ℝ) : C14Leaf → Prop
  | one {g : C14Fun} (h : C14Floor g e) : C14LeafFloor e (.one g)
  | mix {ps : List (ℕ × C14Fun)} (h : ∀ q ∈ ps, C14Floor q.2 e ∧ 1 ≤ q.1) (hs : (ps.map (fun q => q.1)).sum = 10) : C14LeafFloor e (.mix ps)

theorem cec14_mixFloor {e : ℝ} {t : Nat} (ht : 1 ≤ t) (Y : ℕ → ℝ) (ps : List (ℕ × C14Fun)) (h : ∀ q ∈ ps, C14Floor q.2 e ∧ 1 ≤ q.1) (a : Nat) :
    -(e * ((ps.map (fun q => q.1)).sum * t : ℕ)) ≤ c14Mix (10 * t) Y a ps ∧
      ((∀ j < (a + (ps.map (fun q => q.1)).sum) * t, Y j = 0) → c14Mix (10 * t) Y a ps ≤ e * ((ps.map (fun q => q.1)).sum * t : ℕ)) := by
  induction ps generalizing a with
  | nil => simp [c14Mix]
  | cons q ps ih =>
    obtain ⟨i1, i2⟩ := ih (fun p hp => h p (by simp [hp])) (a + q.1)
    obtain ⟨hf, hq⟩ := h q (by simp)
    have e1 : q.1 * (10 * t) / 10 = q.1 * t := by rw [show q.1 * (10 * t) = q.1 * t * 10 by ring]; simp
    have e2 : a * (10 * t) / 10 = a * t := by rw [show a * (10 * t) = a * t * 10 by ring]; simp
    obtain ⟨f1, f2⟩ := hf (q.1 * t) (fun i => Y (a * t + i)) (Nat.mul_pos hq ht)
    simp only [c14Mix, e1, e2, List.map_cons, List.sum_cons]
    have ec : (((q.1 + (ps.map (fun q => q.1)).sum) * t : ℕ) : ℝ) = (q.1 * t : ℕ) + ((ps.map (fun q => q.1)).sum * t : ℕ) := by
      rw [Nat.add_mul]; push_cast; ring
    rw [ec]
    refine ⟨by linarith, fun hY => ?_⟩
    have g1 := f2 (fun i hi => hY (a * t + i) (by
      rw [Nat.add_mul, Nat.add_mul]; omega))
    have g2 := i2 (fun j hj => hY j (by rw [← Nat.add_assoc]; exact hj))
    linarith

theorem cec14_valFloor {e : ℝ} {L : C14Leaf} (hf : C14LeafFloor e L) {hyb : Prop} {l : Leaf} (hl : C14LeafIs hyb l L) {n : Nat} (hn : 1 ≤ n)
    (ht : hyb → ∃ t, n = 10 * t) {perm : ℕ → ℕ} (hp : hyb → ∀ j < n, perm j - 1 < n) (v : ℕ → ℝ) :
    -(e * n) ≤ L.val n perm v ∧ (CecZed n v → L.val n perm v ≤ e * n) := by
  cases hl with
  | basic _ =>
    cases hf with
    | one h => exact h n v hn
  | hybrid hh _ _ =>
    cases hf with
    | mix h hs =>
      obtain ⟨t, rfl⟩ := ht hh
      obtain ⟨h1, h2⟩ := cec14_mixFloor (show 1 ≤ t by omega) (fun j => v (perm j - 1)) _ h 0
      rw [hs] at h1 h2
      refine ⟨h1, fun hv => h2 (fun j hj => hv _ (hp hh j (by rw [Nat.zero_add] at hj; exact hj)))⟩

/-- the floor of a function with the `k`-th row of the tables, and its value at the `k`-th shift -/
theorem cec14_atFloor {md : Nat → Nat → List ℝ} {sd : Nat → List ℝ} {hd : Nat → Nat → List Int} {id dim : Nat} {c : Cec14.Ctx} {x : List ℝ}
    (h : Cec14Ready md sd hd id dim c x) {k : Nat} (hk : k < c14Rows id) (r : Bool) {e : ℝ} {L : C14Leaf} (hf : C14LeafFloor e L) {l : Leaf}
    (hl : C14LeafIs (C14Hybrid id) l L) :
    -(e * dim) ≤ c14At L r dim (sd id) (md id dim) (hd id dim) k x ∧
      ((∀ i < dim, x.getD i 0 = (sd id).getD (k * 100 + i) 0) → c14At L r dim (sd id) (md id dim) (hd id dim) k x ≤ e * dim) := by
  obtain ⟨h2, -, -, -, ht, -⟩ := cec14_construct h.made
  have hp : C14Hybrid id → ∀ j < dim, c14Perm dim (hd id dim) k j - 1 < dim := by
    intro hh j hj
    unfold c14Perm
    have h3 : k * dim + j < (hd id dim).length := by
      have h4 : (k + 1) * dim ≤ c14Rows id * dim := Nat.mul_le_mul_right _ hk
      have h5 := h.shuf hh
      rw [Nat.add_mul, Nat.one_mul] at h4
      omega
    rw [List.getD_eq_getElem?_getD, List.getElem?_eq_getElem h3]
    have := h.perm hh _ (List.getElem_mem h3)
    simp only [Option.getD_some]
    omega
  obtain ⟨v1, v2⟩ := cec14_valFloor hf hl (show 1 ≤ dim by omega) ht hp
    (c13Mul dim (c13Mat r dim (md id dim) k) (fun i => x.getD i 0 - c14Shift (sd id) k i))
  refine ⟨v1, fun hx => v2 (fun i _ => ?_)⟩
  unfold c13Mul
  refine Finset.sum_eq_zero (fun j hj => ?_)
  simp only
  rw [hx j (Finset.mem_range.1 hj)]
  unfold c14Shift
  ring

theorem cec14_mono {g : C14Fun} {e : ℝ} (he : 0 ≤ e) (h : C14Floor g 0) : C14Floor g e := by
  intro n v hn
  obtain ⟨h1, h2⟩ := h n v hn
  have : 0 ≤ e * (n : ℝ) := mul_nonneg he (Nat.cast_nonneg n)
  exact ⟨by linarith, fun hv => by linarith [h2 hv]⟩

section
attribute [local irreducible] c14Elliptic c14Cigar c14Discus c14Rosenbrock c14Ackley
  c14Weierstrass c14Griewank c14Rastrigin c14Schwefel c14Katsuura c14GrieRosen c14Scaffer c14HappyCat c14HGBat

theorem cec14_mix {e : ℝ} {ps : List (ℕ × C14Fun)} (h : List.Forall (fun q => C14Floor q.2 e ∧ 1 ≤ q.1) ps) (hs : (ps.map (fun q => q.1)).sum = 10) :
    C14LeafFloor e (.mix ps) := .mix (List.forall_iff_forall_mem.1 h) hs

theorem cec14_f1 : C14LeafFloor 0.000002 c14H1 :=
  cec14_mix ⟨⟨cec14_schwefel, by norm_num⟩, ⟨cec14_mono (by norm_num) cec14_rastrigin, by norm_num⟩, ⟨cec14_mono (by norm_num) cec14_elliptic, by norm_num⟩⟩ rfl

theorem cec14_f2 : C14LeafFloor 0 c14H2 :=
  cec14_mix ⟨⟨cec14_cigar, by norm_num⟩, ⟨cec14_hgBat, by norm_num⟩, ⟨cec14_rastrigin, by norm_num⟩⟩ rfl

theorem cec14_f3 : C14LeafFloor 0 c14H3 :=
  cec14_mix ⟨⟨cec14_griewank, by norm_num⟩, ⟨cec14_weierstrass, by norm_num⟩, ⟨cec14_rosenbrock, by norm_num⟩, ⟨cec14_scaffer, by norm_num⟩⟩ rfl

theorem cec14_f4 : C14LeafFloor 0 c14H4 :=
  cec14_mix ⟨⟨cec14_hgBat, by norm_num⟩, ⟨cec14_discus, by norm_num⟩, ⟨cec14_grieRosen, by norm_num⟩, ⟨cec14_rastrigin, by norm_num⟩⟩ rfl

theorem cec14_f5 : C14LeafFloor 0.000002 c14H5 :=
  cec14_mix ⟨⟨cec14_mono (by norm_num) cec14_scaffer, by norm_num⟩, ⟨cec14_mono (by norm_num) cec14_hgBat, by norm_num⟩,
    ⟨cec14_mono (by norm_num) cec14_rosenbrock, by norm_num⟩, ⟨cec14_schwefel, by norm_num⟩, ⟨cec14_mono (by norm_num) cec14_elliptic, by norm_num⟩⟩ rfl

theorem cec14_f6 : C14LeafFloor 0.000002 c14H6 :=
  cec14_mix ⟨⟨cec14_mono (by norm_num) cec14_katsuura, by norm_num⟩, ⟨cec14_mono (by norm_num) cec14_happyCat, by norm_num⟩,
    ⟨cec14_mono (by norm_num) cec14_grieRosen, by norm_num⟩, ⟨cec14_schwefel, by norm_num⟩, ⟨cec14_mono (by norm_num) cec14_ackley, by norm_num⟩⟩ rfl

theorem cec14_five {L M : C14Leaf} (hLM : L = M) (h : C14LeafFloor 0.000002 L) : C14LeafFloor (1 / 500000) M := by
  subst hLM
  rwa [show (1 / 500000 : ℝ) = 0.000002 by norm_num]

theorem cec14_singleFloor (k : Nat) (s : C14Leaf × Bool) (hs : c14Singles[k]? = some s) :
    C14LeafFloor (if k = 9 ∨ k = 10 ∨ k = 16 ∨ k = 20 ∨ k = 21 then 0.000002 else 0) s.1 := by
  have hk : k < 22 := by
    by_contra hk
    rw [List.getElem?_eq_none (by simp [c14Singles]; omega)] at hs
    cases hs
  interval_cases k <;>
    (simp only [c14Singles, List.getElem?_cons_succ, List.getElem?_cons_zero, Option.some.injEq] at hs
     subst hs
     norm_num
     first
       | exact .one cec14_elliptic
       | exact .one cec14_cigar
       | exact .one cec14_discus
       | exact .one cec14_rosenbrock
       | exact .one cec14_ackley
       | exact .one cec14_weierstrass
       | exact .one cec14_griewank
       | exact .one cec14_rastrigin
       | exact .one cec14_katsuura
       | exact .one cec14_happyCat
       | exact .one cec14_hgBat
       | exact .one cec14_grieRosen
       | exact .one cec14_scaffer
       | exact cec14_f2
       | exact cec14_f3
       | exact cec14_f4
       | exact cec14_five rfl (.one cec14_schwefel)
       | exact cec14_five rfl cec14_f1
       | exact cec14_five rfl cec14_f5
       | exact cec14_five rfl cec14_f6)

/-- what is needed of a component -/
structure C14PartFloor (p : C14Part) : Prop where
  low : 0 ≤ p.2.2.1
  bias : 0 ≤ p.2.2.2.2
  floor : ∃ e, C14LeafFloor e p.1 ∧ p.2.2.1 * e ≤ 0.000005

theorem cec14_pf0 {L : C14Leaf} {r : Bool} {l s b : ℝ} (h : C14LeafFloor 0 L) (hl : 0 ≤ l) (hb : 0 ≤ b) : C14PartFloor (L, r, l, s, b) :=
  ⟨hl, hb, 0, h, by norm_num⟩

theorem cec14_pf2 {L : C14Leaf} {r : Bool} {l s b : ℝ} (h : C14LeafFloor 0.000002 L) (hl : 0 ≤ l) (hl' : l ≤ 2.5) (hb : 0 ≤ b) :
    C14PartFloor (L, r, l, s, b) := ⟨hl, hb, _, h, by
      show l * 0.000002 ≤ 0.000005
      linarith⟩

theorem cec14_compFloor (k : Nat) (s : List C14Part) (hs : c14Comps[k]? = some s) :
    (∀ p ∈ s, C14PartFloor p) ∧ ∃ p ps, s = p :: ps ∧ p.2.2.2.2 = 0 := by
  have hk : k < 8 := by
    by_contra hk
    rw [List.getElem?_eq_none (by simp [c14Comps]; omega)] at hs
    cases hs
  interval_cases k <;>
    (simp only [c14Comps, List.getElem?_cons_succ, List.getElem?_cons_zero, Option.some.injEq] at hs
     subst hs
     refine ⟨?_, _, _, rfl, rfl⟩
     simp only [List.mem_cons, List.not_mem_nil, or_false, forall_eq_or_imp, forall_eq]
     repeat' apply And.intro
     all_goals
       first
         | exact cec14_pf2 (.one cec14_schwefel) (by norm_num) (by norm_num) (by norm_num)
         | exact cec14_pf0 (.one cec14_rosenbrock) (by norm_num) (by norm_num)
         | exact cec14_pf0 (.one cec14_elliptic) (by norm_num) (by norm_num)
         | exact cec14_pf0 (.one cec14_cigar) (by norm_num) (by norm_num)
         | exact cec14_pf0 (.one cec14_discus) (by norm_num) (by norm_num)
         | exact cec14_pf0 (.one cec14_rastrigin) (by norm_num) (by norm_num)
         | exact cec14_pf0 (.one cec14_hgBat) (by norm_num) (by norm_num)
         | exact cec14_pf0 (.one cec14_happyCat) (by norm_num) (by norm_num)
         | exact cec14_pf0 (.one cec14_weierstrass) (by norm_num) (by norm_num)
         | exact cec14_pf0 (.one cec14_griewank) (by norm_num) (by norm_num)
         | exact cec14_pf0 (.one cec14_grieRosen) (by norm_num) (by norm_num)
         | exact cec14_pf0 (.one cec14_scaffer) (by norm_num) (by norm_num)
         | exact cec14_pf2 cec14_f1 (by norm_num) (by norm_num) (by norm_num)
         | exact cec14_pf0 cec14_f2 (by norm_num) (by norm_num)
         | exact cec14_pf0 cec14_f3 (by norm_num) (by norm_num)
         | exact cec14_pf0 cec14_f4 (by norm_num) (by norm_num)
         | exact cec14_pf2 cec14_f5 (by norm_num) (by norm_num) (by norm_num)
         | exact cec14_pf2 cec14_f6 (by norm_num) (by norm_num) (by norm_num))

end

theorem cec14_take {l x : List ℝ} {n : Nat} (h : x = l.take n) : ∀ i < n, x.getD i 0 = l.getD (0 * 100 + i) 0 := by
  intro i hi
  rw [h, List.getD_eq_getElem?_getD, List.getD_eq_getElem?_getD, List.getElem?_take_of_lt hi, Nat.zero_mul, Nat.zero_add]

theorem cec14_singleRun {md : Nat → Nat → List ℝ} {sd : Nat → List ℝ} {hd : Nat → Nat → List Int} {id dim : Nat} {c : Cec14.Ctx} {x : List ℝ}
    (h : Cec14Ready md sd hd id dim c x) (hid : id ≤ 22) {e : ℝ}
    (he : (if id - 1 = 9 ∨ id - 1 = 10 ∨ id - 1 = 16 ∨ id - 1 = 20 ∨ id - 1 = 21 then (0.000002 : ℝ) else 0) = e) :
    ∃ v, Cec14.fitness id c x = .ok [v] ∧ 100 * (id : ℝ) - e * dim ≤ v ∧ (x = (sd id).take dim → v ≤ 100 * (id : ℝ) + e * dim) := by
  obtain ⟨-, -, h1, h2, -⟩ := cec14_construct h.made
  obtain ⟨s, hs⟩ : ∃ s, c14Singles[id - 1]? = some s := ⟨_, List.getElem?_eq_getElem (by simp [c14Singles]; omega)⟩
  obtain ⟨l, -, hl, -⟩ := cec14_singleAt h1 (show c14Singles[id - 1]? = some (s.1, s.2) from hs)
  have hr := cec14_rows_pos id
  have hf := cec14_singleFloor (id - 1) s hs
  rw [he] at hf
  obtain ⟨v1, v2⟩ := cec14_atFloor h (show 0 < c14Rows id by omega) s.2 hf hl
  exact ⟨_, C154_single h s.1 s.2 hs, by linarith, fun hx => by linarith [v2 (cec14_take hx)]⟩

/-- C155: no point is below the stated optimum, and the shift attains it; the problems without Schwefel's function -/
theorem C155_minimum {md : Nat → Nat → List ℝ} {sd : Nat → List ℝ} {hd : Nat → Nat → List Int} {id dim : Nat} {c : Cec14.Ctx} {x : List ℝ}
    (h : Cec14Ready md sd hd id dim c x) (hid : id ≤ 22) (hs : id ∉ [10, 11, 17, 21, 22]) :
    (∃ v, Cec14.fitness id c x = .ok [v] ∧ 100 * (id : ℝ) ≤ v) ∧ (x = (sd id).take dim → Cec14.fitness id c x = .ok [100 * (id : ℝ)]) := by
  obtain ⟨-, -, h1, -⟩ := cec14_construct h.made
  simp only [List.mem_cons, List.not_mem_nil, or_false] at hs
  obtain ⟨v, ev, v1, v2⟩ := cec14_singleRun h hid (if_neg (by omega))
  refine ⟨⟨v, ev, by linarith⟩, fun hx => ?_⟩
  rw [ev, show v = 100 * (id : ℝ) by linarith [v2 hx]]

/-- C155: the problems with Schwefel's function, up to the digits of its constants -/
theorem C155_schwefel {md : Nat → Nat → List ℝ} {sd : Nat → List ℝ} {hd : Nat → Nat → List Int} {id dim : Nat} {c : Cec14.Ctx} {x : List ℝ}
    (h : Cec14Ready md sd hd id dim c x) (hs : id ∈ [10, 11, 17, 21, 22]) :
    ∃ v, Cec14.fitness id c x = .ok [v] ∧ 100 * (id : ℝ) - 0.000002 * dim ≤ v ∧ (x = (sd id).take dim → v ≤ 100 * (id : ℝ) + 0.000002 * dim) := by
  simp only [List.mem_cons, List.not_mem_nil, or_false] at hs
  exact cec14_singleRun h (by omega) (if_pos (by omega))

theorem cec14_meanLow {α : Type} {w f : α → ℝ} {E : ℝ} (l : List α) (hl : l ≠ []) (hw : ∀ a ∈ l, 0 < w a) (hf : ∀ a ∈ l, -E ≤ f a) :
    -E ≤ (l.map (fun a => w a * f a)).sum / (l.map w).sum := by
  have h1 : -E * (l.map w).sum ≤ (l.map (fun a => w a * f a)).sum := by
    clear hl
    induction l with
    | nil => simp
    | cons a l ih =>
      have i := ih (fun b hb => hw b (by simp [hb])) (fun b hb => hf b (by simp [hb]))
      have j := mul_le_mul_of_nonneg_left (hf a (by simp)) (hw a (by simp)).le
      simp only [List.map_cons, List.sum_cons]
      linarith
  have h2 : 0 < (l.map w).sum := by
    obtain ⟨a, l, rfl⟩ : ∃ a m, l = a :: m := by
      cases l with
      | nil => exact absurd rfl hl
      | cons a m => exact ⟨a, m, rfl⟩
    simp only [List.map_cons, List.sum_cons]
    have : 0 ≤ (l.map w).sum := List.sum_nonneg (by
      intro b hb
      obtain ⟨c, hc, rfl⟩ := List.mem_map.1 hb
      exact (hw c (by simp [hc])).le)
    linarith [hw a (by simp)]
  rw [le_div_iff₀ h2]
  exact h1

theorem cec14_meanHigh {α : Type} {w f : α → ℝ} {E M : ℝ} (a : α) (l : List α) (hM : 0 < M) (ha : w a = M) (hE : 0 ≤ E) (hfa : f a ≤ E)
    (hw : ∀ b ∈ l, 0 < w b ∧ w b ≤ 1) (hf : ∀ b ∈ l, -E ≤ f b) :
    ((a :: l).map (fun a => w a * f a)).sum / ((a :: l).map w).sum ≤ E + (l.map (fun b => f b + E)).sum / M := by
  have h1 : (l.map (fun b => w b * f b)).sum + E * (l.map w).sum ≤ (l.map (fun b => f b + E)).sum ∧ 0 ≤ (l.map w).sum ∧
      0 ≤ (l.map (fun b => f b + E)).sum := by
    induction l with
    | nil => simp
    | cons b l ih =>
      obtain ⟨i1, i2, i3⟩ := ih (fun c hc => hw c (by simp [hc])) (fun c hc => hf c (by simp [hc]))
      obtain ⟨w1, w2⟩ := hw b (by simp)
      have j : 0 ≤ f b + E := by linarith [hf b (by simp)]
      have k := mul_le_mul_of_nonneg_right w2 j
      simp only [List.map_cons, List.sum_cons]
      refine ⟨by linarith, by linarith, by linarith⟩
  obtain ⟨i1, i2, i3⟩ := h1
  simp only [List.map_cons, List.sum_cons, ha]
  rw [div_le_iff₀ (by linarith)]
  have e1 : (l.map (fun b => f b + E)).sum / M * M = (l.map (fun b => f b + E)).sum := div_mul_cancel₀ _ hM.ne'
  have e2 : 0 ≤ (l.map (fun b => f b + E)).sum / M * (l.map w).sum := mul_nonneg (div_nonneg i3 hM.le) i2
  have e3 : 0 ≤ E * (l.map w).sum := mul_nonneg hE i2
  have e4 := mul_le_mul_of_nonneg_left hfa hM.le
  nlinarith

theorem cec14_wPos (n : ℕ) (shifts : List ℝ) (x : List ℝ) (q : C14Part × ℕ) : 0 < c14W n shifts x q := by
  unfold c14W c14Weight
  have h0 : 0 ≤ ∑ j ∈ Finset.range n, (x.getD j 0 - c14Shift shifts q.2 j) ^ 2 := Finset.sum_nonneg (fun _ _ => sq_nonneg _)
  simp only
  by_cases h : ∑ j ∈ Finset.range n, (x.getD j 0 - c14Shift shifts q.2 j) ^ 2 = 0
  · rw [if_pos h, ← cec14_dblMax]
    exact cec14_dblMax_pos
  · rw [if_neg h]
    have := lt_of_le_of_ne h0 (Ne.symm h)
    exact mul_pos (one_div_pos.2 (Real.sqrt_pos.2 this)) (Real.exp_pos _)

theorem cec14_partLow {md : Nat → Nat → List ℝ} {sd : Nat → List ℝ} {hd : Nat → Nat → List Int} {id dim : Nat} {c : Cec14.Ctx} {x : List ℝ}
    (h : Cec14Ready md sd hd id dim c x) {p : C14Part} (hp : C14PartFloor p) {l : Leaf} (hl : C14LeafIs (C14Hybrid id) l p.1) {k : Nat} (hk : k < c14Rows id) :
    -(0.000005 * (dim : ℝ)) ≤ p.2.2.1 * c14At p.1 p.2.1 dim (sd id) (md id dim) (hd id dim) k x + p.2.2.2.2 ∧
      ((∀ i < dim, x.getD i 0 = (sd id).getD (k * 100 + i) 0) → p.2.2.2.2 = 0 →
        p.2.2.1 * c14At p.1 p.2.1 dim (sd id) (md id dim) (hd id dim) k x + p.2.2.2.2 ≤ 0.000005 * dim) := by
  obtain ⟨e, he, hle⟩ := hp.floor
  obtain ⟨v1, v2⟩ := cec14_atFloor h hk p.2.1 he hl
  have h1 := mul_le_mul_of_nonneg_left v1 hp.low
  have h2 := mul_le_mul_of_nonneg_right hle (Nat.cast_nonneg (α := ℝ) dim)
  have h3 := hp.bias
  refine ⟨by linarith, fun hx hb => ?_⟩
  have h4 := mul_le_mul_of_nonneg_left (v2 hx) hp.low
  rw [hb]
  linarith

theorem cec14_compSpec {id : Nat} (hid : 23 ≤ id) {ps : List C14Part} (hg : c14Comps[id - 23]? = some ps) :
    (∀ p ∈ ps, C14PartFloor p ∧ ∃ l, C14LeafIs (C14Hybrid id) l p.1) ∧ ps.length = c14Rows id ∧ ps ≠ [] := by
  obtain ⟨k, rfl⟩ : ∃ k, id = k + 23 := ⟨id - 23, by omega⟩
  rw [Nat.add_sub_cancel] at hg
  obtain ⟨q, -, H, -, -, hne, hrows, -⟩ := cec14_compsS k _ hg
  obtain ⟨hf, -⟩ := cec14_compFloor k ps hg
  refine ⟨fun p hp => ⟨hf p hp, ?_⟩, hrows, hne⟩
  obtain ⟨a, ha⟩ := cec14_forall2 H p hp
  exact ⟨a.leaf, cec14_leafMono (fun h => Or.inr (by omega)) ha.leaf⟩

/-- C155: no point of a composition is below its stated optimum by more than the digits of Schwefel's constants -/
theorem C155_composition {md : Nat → Nat → List ℝ} {sd : Nat → List ℝ} {hd : Nat → Nat → List Int} {id dim : Nat} {c : Cec14.Ctx} {x : List ℝ}
    (h : Cec14Ready md sd hd id dim c x) (hid : 23 ≤ id) : ∃ v, Cec14.fitness id c x = .ok [v] ∧ 100 * (id : ℝ) - 0.000005 * dim ≤ v := by
  obtain ⟨-, -, h1, h2, -⟩ := cec14_construct h.made
  obtain ⟨ps, hg⟩ : ∃ s, c14Comps[id - 23]? = some s := ⟨_, List.getElem?_eq_getElem (by simp [c14Comps]; omega)⟩
  obtain ⟨hp, hr, hne⟩ := cec14_compSpec hid hg
  refine ⟨_, C154_composition h hid ps hg, ?_⟩
  have hm := cec14_meanLow (E := 0.000005 * (dim : ℝ)) (w := c14W dim (sd id) x)
    (f := fun q => q.1.2.2.1 * c14At q.1.1 q.1.2.1 dim (sd id) (md id dim) (hd id dim) q.2 x + q.1.2.2.2.2) ps.zipIdx (by simpa using hne)
    (fun _ _ => cec14_wPos _ _ _ _) (fun q hq => by
      obtain ⟨p1, l, p2⟩ := hp q.1 (List.fst_mem_of_mem_zipIdx hq)
      exact (cec14_partLow h p1 p2 (by have := List.snd_lt_of_mem_zipIdx hq; omega)).1)
  unfold c14Comp
  linarith

/-- C155: at the first shift a composition has its stated optimum, up to the digits of Schwefel's constants and to the other
components, whose share is divided by the largest double; the other shifts are at a distance of at least 1 -/
theorem C155_compositionAt {md : Nat → Nat → List ℝ} {sd : Nat → List ℝ} {hd : Nat → Nat → List Int} {id dim : Nat} {c : Cec14.Ctx} {x : List ℝ}
    (h : Cec14Ready md sd hd id dim c x) (hid : 23 ≤ id) (ps : List C14Part) (hg : c14Comps[id - 23]? = some ps) (hx : x = (sd id).take dim)
    (hfar : ∀ k, 1 ≤ k → k < c14Rows id → 1 ≤ ∑ j ∈ Finset.range dim, (x.getD j 0 - c14Shift (sd id) k j) ^ 2) :
    ∃ v, Cec14.fitness id c x = .ok [v] ∧
      v ≤ 100 * (id : ℝ) + 0.000005 * dim
        + (ps.zipIdx.tail.map (fun q => q.1.2.2.1 * c14At q.1.1 q.1.2.1 dim (sd id) (md id dim) (hd id dim) q.2 x + q.1.2.2.2.2 + 0.000005 * dim)).sum
          / ((2 ^ 53 - 1) * 2 ^ 971) := by
  obtain ⟨hp, hr, -⟩ := cec14_compSpec hid hg
  refine ⟨_, C154_composition h hid ps hg, ?_⟩
  obtain ⟨-, p, ps, rfl, hb⟩ := cec14_compFloor _ _ hg
  have hx' := cec14_take hx
  have hM : 0 < ((2 : ℝ) ^ 53 - 1) * 2 ^ 971 := by rw [← cec14_dblMax]; exact cec14_dblMax_pos
  have hm := cec14_meanHigh (E := 0.000005 * (dim : ℝ)) (w := c14W dim (sd id) x)
    (f := fun q => q.1.2.2.1 * c14At q.1.1 q.1.2.1 dim (sd id) (md id dim) (hd id dim) q.2 x + q.1.2.2.2.2) (p, 0) (ps.zipIdx 1) hM
    (by
      unfold c14W c14Weight
      simp only
      rw [if_pos]
      refine Finset.sum_eq_zero (fun j hj => ?_)
      rw [hx' j (Finset.mem_range.1 hj)]
      unfold c14Shift
      simp)
    (by positivity)
    (by
      obtain ⟨p1, l, p2⟩ := hp p (by simp)
      exact (cec14_partLow h p1 p2 (cec14_rows_pos id)).2 hx' hb)
    (fun q hq => by
      refine ⟨cec14_wPos _ _ _ _, ?_⟩
      have hd1 := hfar q.2 (List.le_snd_of_mem_zipIdx hq) (by
        have := List.snd_lt_add_of_mem_zipIdx hq
        simp only [List.length_cons] at hr
        omega)
      unfold c14W c14Weight
      simp only
      rw [if_neg (by linarith)]
      have g1 : 1 / √(∑ j ∈ Finset.range dim, (x.getD j 0 - c14Shift (sd id) q.2 j) ^ 2) ≤ 1 := by
        rw [div_le_one (by positivity)]
        exact Real.one_le_sqrt.2 hd1
      refine mul_le_one₀ g1 (Real.exp_pos _).le (Real.exp_le_one_iff.2 ?_)
      refine div_nonpos_of_nonpos_of_nonneg (by linarith) (by positivity))
    (fun q hq => by
      obtain ⟨p1, l, p2⟩ := hp q.1 (List.mem_cons_of_mem _ (List.fst_mem_of_mem_zipIdx hq))
      exact (cec14_partLow h p1 p2 (by
        have := List.snd_lt_add_of_mem_zipIdx hq
        simp only [List.length_cons] at hr
        omega)).1)
  unfold c14Comp
  rw [List.zipIdx_cons, List.tail_cons]
  linarith

/-- two dimensions, every matrix the one with rows (0, 1) and (-1, 0) -/
def cec14Quarter : Nat → Nat → List ℝ := fun _ _ => [0, 1, -1, 0, 0, 1, -1, 0, 0, 1, -1, 0, 0, 1, -1, 0, 0, 1, -1, 0]

/-- ten dimensions: the shift goes through all variables -/
def cec14Turn : Nat → Nat → List Int := fun _ _ => [2, 3, 4, 5, 6, 7, 8, 9, 10, 1]

/-- the hypotheses can be met: problem 9 in two dimensions, with a shift and a matrix that is not the identity -/
example : Cec14.fitness 9 ⟨2, [3, 4], cec14Quarter 9 2, []⟩ [3, 4] = .ok [900] := by
  have h : Cec14Ready cec14Quarter (fun _ => 3 :: 4 :: List.replicate 98 0) (fun _ _ => []) 9 2 ⟨2, [3, 4], cec14Quarter 9 2, []⟩ [3, 4] :=
    ⟨rfl, by simp [c14Rows], by simp [cec14Quarter, c14Rows], fun h => by simp [C14Hybrid] at h, fun h => by simp [C14Hybrid] at h, rfl⟩
  rw [(C155_minimum h (by norm_num) (by norm_num)).2 rfl]
  norm_num

/-- the first shift of a composition with other shifts far from it -/
example : ∃ c, Cec14Ready cec14Quarter (fun _ => List.replicate 100 0 ++ List.replicate 200 5) (fun _ _ => []) 24 2 c [0, 0] ∧
    [0, 0] = (List.replicate 100 (0 : ℝ) ++ List.replicate 200 5).take 2 ∧
    ∀ k, 1 ≤ k → k < c14Rows 24 →
      1 ≤ ∑ j ∈ Finset.range 2, (([0, 0] : List ℝ).getD j 0 - c14Shift (List.replicate 100 0 ++ List.replicate 200 5) k j) ^ 2 := by
  refine ⟨_, ⟨rfl, ?_, by simp [cec14Quarter, c14Rows], fun h => by simp [C14Hybrid] at h, fun h => by simp [C14Hybrid] at h, rfl⟩, rfl, fun k h1 h2 => ?_⟩
  · show 100 * 3 ≤ _
    rw [List.length_append, List.length_replicate, List.length_replicate]
  · have h3 : k < 3 := h2
    have h4 : ∀ j < 2, c14Shift (List.replicate 100 0 ++ List.replicate 200 5) k j = 5 := by
      intro j hj
      unfold c14Shift
      rw [List.getD_eq_getElem?_getD, List.getElem?_append_right (by rw [List.length_replicate]; omega), List.getElem?_replicate_of_lt
        (by rw [List.length_replicate]; omega), Option.getD_some]
    rw [Finset.sum_range_succ, Finset.sum_range_one, h4 0 (by norm_num), h4 1 (by norm_num)]
    norm_num

/-- a hybrid problem in ten dimensions -/
example (x : List ℝ) (hx : x.length = 10) :
    Cec14Ready (fun _ _ => List.replicate 100 2) (fun _ => List.replicate 100 0) cec14Turn 18 10
      ⟨10, List.replicate 10 0, List.replicate 100 2, [2, 3, 4, 5, 6, 7, 8, 9, 10, 1]⟩ x :=
  ⟨rfl, by simp [c14Rows], by simp [c14Rows], fun _ => by simp [cec14Turn, c14Rows], fun _ s hs => by simp [cec14Turn] at hs; omega, hx⟩

end Verif.Props
