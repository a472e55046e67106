import Verif.Model.Pso
import Verif.Proof.Algo
import Mathlib.Data.Int.ModEq
import Mathlib.Data.List.Nodup
import Mathlib.Tactic.Ring
import Mathlib.Tactic.Linarith
import Mathlib.Tactic.IntervalCases

/-!
# C90: the topologies of pso
-/

set_option autoImplicit false

namespace Verif.Props

open Verif Run Alg

variable {K σ : Type} [Field K] [LinearOrder K]

/-! ### The ring -/

/-- `q` comes `j` places after `p` on a ring of `n` -/
def AfterBy (n p j q : Nat) : Prop := (p + j) % n = q

theorem psoRight_iff {n p j q : Nat} (hp : p < n) (hj : j ≤ n) : psoRight n p j = q ↔ AfterBy n p j q := by
  unfold psoRight AfterBy
  split
  · rw [Nat.mod_eq_sub_mod (by omega), Nat.mod_eq_of_lt (by omega)]
  · rw [Nat.mod_eq_of_lt (by omega)]

theorem psoLeft_iff {n p j q : Nat} (hp : p < n) (hj : j ≤ n) (hn : n < 2 ^ 63) : psoLeft n p j = q ↔ q < n ∧ AfterBy n q j p := by
  unfold psoLeft AfterBy
  have key : ∀ q, q < n → ((q + j) % n = p ↔ (if p < j then p + n - j else p - j) = q) := by
    intro q hq
    by_cases h : q + j < n
    · rw [Nat.mod_eq_of_lt h]; split <;> omega
    · rw [Nat.mod_eq_sub_mod (by omega), Nat.mod_eq_of_lt (by omega)]; split <;> omega
  have e : (p + (2 ^ 64 - j) + n) % 2 ^ 64 = if p < j then p + n - j else p + n - j := by
    rw [ite_self, show p + (2 ^ 64 - j) + n = (p + n - j) + 2 ^ 64 by omega, Nat.add_mod_right, Nat.mod_eq_of_lt (by omega)]
  constructor
  · intro h
    have hq : q < n := by
      split at h
      · rw [e] at h; split at h <;> omega
      · omega
    refine ⟨hq, (key q hq).mpr ?_⟩
    split at h
    · rename_i h'; rw [e] at h; simp only [ite_self] at h; rw [if_pos h']; exact h
    · rename_i h'; rw [if_neg h']; exact h
  · rintro ⟨hq, h⟩
    have := (key q hq).mp h
    split at this
    · rename_i h'; rw [if_pos h', e, if_pos h']; exact this
    · rename_i h'; rw [if_neg h']; exact this

theorem getElem?_map_range {α : Type} {f : Nat → α} {n p : Nat} {a : α} : ((List.range n).map f)[p]? = some a ↔ p < n ∧ f p = a := by
  rw [List.getElem?_map]
  by_cases h : p < n
  · rw [List.getElem?_range h]; simp [h]
  · rw [List.getElem?_eq_none (by simpa using h)]; simp [h]

/-- C90 (lbest). A radius of at least one and at most the size of the swarm: every particle has two neighbours for
every distance up to the radius, they are particles of the swarm, exactly those not further away than the radius on the
ring, and being neighbours is mutual. -/
theorem C90_ring_partial {n param : Nat} (h1 : 2 ≤ param) (h2 : param / 2 ≤ n) (hn : n < 2 ^ 63) :
    (psoRing n param).length = n ∧
    (∀ (p : Nat) (l : List Nat), (psoRing n param)[p]? = some l → l ≠ [] ∧ l.length = 2 * (param / 2) ∧
      ∀ q : Nat, q ∈ l ↔ q < n ∧ ∃ j : Nat, 1 ≤ j ∧ j ≤ param / 2 ∧ (AfterBy n p j q ∨ AfterBy n q j p)) ∧
    (∀ (p q : Nat) (l m : List Nat), (psoRing n param)[p]? = some l → (psoRing n param)[q]? = some m → (q ∈ l ↔ p ∈ m)) := by
  have main : ∀ (p : Nat) (l : List Nat), (psoRing n param)[p]? = some l → p < n ∧ l ≠ [] ∧ l.length = 2 * (param / 2) ∧
      ∀ q : Nat, q ∈ l ↔ q < n ∧ ∃ j : Nat, 1 ≤ j ∧ j ≤ param / 2 ∧ (AfterBy n p j q ∨ AfterBy n q j p) := by
    intro p l hl
    obtain ⟨hp, rfl⟩ := getElem?_map_range.mp hl
    refine ⟨hp, ?_, by simp; omega, ?_⟩
    · intro h
      have := congrArg List.length h
      simp at this
      omega
    · intro q
      simp only [List.mem_append, List.mem_map, List.mem_reverse, List.mem_range'_1]
      constructor
      · rintro (⟨j, hj, h⟩ | ⟨j, hj, h⟩)
        · obtain ⟨hq, h⟩ := (psoLeft_iff hp (by omega) hn).mp h
          exact ⟨hq, j, by omega, by omega, Or.inr h⟩
        · rw [psoRight_iff hp (by omega)] at h
          refine ⟨?_, j, by omega, by omega, Or.inl h⟩
          rw [← h]; exact Nat.mod_lt _ (by omega)
      · rintro ⟨hq, j, hj1, hj2, h | h⟩
        · exact Or.inr ⟨j, by omega, (psoRight_iff hp (by omega)).mpr h⟩
        · exact Or.inl ⟨j, by omega, (psoLeft_iff hp (by omega) hn).mpr ⟨hq, h⟩⟩
  refine ⟨by simp [psoRing], fun p l hl => (main p l hl).2, ?_⟩
  intro p q l m hl hm
  obtain ⟨hp, _, _, h1⟩ := main p l hl
  obtain ⟨hq, _, _, h2⟩ := main q m hm
  rw [h1, h2]
  simp only [hp, hq, true_and]
  constructor <;> (rintro ⟨j, a, b, h⟩; exact ⟨j, a, b, h.symm⟩)

example : (psoRing 5 4)[0]? = some [3, 4, 1, 2] := by decide

/-- C90 is false for `neighb_param` 1, which the constructor accepts: nobody has a neighbour. -/
theorem C90_ring_alone (n : Nat) : psoRing n 1 = List.replicate n [] := by
  simp [psoRing, List.map_const']

/-- C90 is false for a radius larger than the swarm, for example for the default `neighb_param` (4) and a single
particle: the list of the first particle contains numbers that are no particles. -/
theorem C90_ring_outside {n param : Nat} (hn0 : 0 < n) (hn : n < 2 ^ 63) (h : n < param / 2) (hp : param < 2 ^ 32) :
    ∃ l : List Nat, (psoRing n param)[0]? = some l ∧ 2 ^ 64 - 1 ∈ l := by
  refine ⟨_, getElem?_map_range.mpr ⟨hn0, rfl⟩, ?_⟩
  rw [List.mem_append, List.mem_map]
  refine Or.inl ⟨n + 1, by simp only [List.mem_reverse, List.mem_range'_1]; omega, ?_⟩
  unfold psoLeft
  rw [if_pos (by omega), Nat.mod_eq_of_lt (by omega)]
  omega

example : psoRing 1 4 = [[2 ^ 64 - 1, 0, 0, 1]] := by decide

/-! ### The lattice -/

theorem psoRows_spec {n : Nat} : ∀ k : Nat, 0 < k →
    ∃ r, psoRows n k = .ok r ∧ 0 < r ∧ r ≤ k ∧ r ∣ n ∧ ∀ r', r' ∣ n → r' ≤ k → r' ≤ r := by
  intro k
  induction k with
  | zero => intro h; omega
  | succ k ih =>
    intro _
    rw [psoRows]
    by_cases h : n % (k + 1) = 0
    · rw [if_pos h]
      exact ⟨k + 1, rfl, by omega, le_rfl, Nat.dvd_of_mod_eq_zero h, fun r' _ h => h⟩
    · rw [if_neg h]
      have hk : 0 < k := by
        rcases Nat.eq_zero_or_pos k with rfl | h'
        · exact absurd (Nat.mod_one n) h
        · exact h'
      obtain ⟨r, h1, h2, h3, h4, h5⟩ := ih hk
      refine ⟨r, h1, h2, by omega, h4, fun r' hd hle => h5 r' hd ?_⟩
      rcases Nat.lt_or_ge r' (k + 1) with h' | h'
      · omega
      · exact absurd (Nat.mod_eq_zero_of_dvd (show k + 1 ∣ n by rwa [show k + 1 = r' by omega])) h

theorem psoWrap_eq {c : Nat} (hc : 0 < c) {x : Nat} (hx : x < c) :
    psoWrap ((x : ℤ) + 0) c = x ∧ psoWrap ((x : ℤ) + 1) c = ((x + 1) % c : Nat) ∧
    psoWrap ((x : ℤ) + -1) c = ((x + c - 1) % c : Nat) := by
  refine ⟨?_, ?_, ?_⟩
  · unfold psoWrap
    have : ((x : ℤ) + 0).tmod c = x := by
      rw [add_zero, Int.tmod_eq_emod_of_nonneg (by omega)]; exact Int.emod_eq_of_lt (by omega) (by omega)
    rw [this, if_neg (by omega)]
  · unfold psoWrap
    have : ((x : ℤ) + 1).tmod c = ((x + 1) % c : Nat) := by
      rw [Int.tmod_eq_emod_of_nonneg (by omega)]; norm_cast
    rw [this, if_neg (by omega)]
  · unfold psoWrap
    rcases Nat.eq_zero_or_pos x with rfl | h
    · rw [show ((0 : Nat) : ℤ) + -1 = -1 by rfl, show (-1 : ℤ) = -(1 : ℤ) by rfl, Int.neg_tmod]
      rcases Nat.lt_or_ge 1 c with h1 | h1
      · have : (1 : ℤ).tmod c = 1 := by
          rw [Int.tmod_eq_emod_of_nonneg (by omega)]; exact Int.emod_eq_of_lt (by omega) (by omega)
        rw [this, if_pos (by omega), Nat.mod_eq_of_lt (by omega)]
        omega
      · have : c = 1 := by omega
        subst this
        decide
    · have e : (x : ℤ) + -1 = ((x - 1 : Nat) : ℤ) := by omega
      have : ((x : ℤ) + -1).tmod c = ((x - 1 : Nat) : ℤ) := by
        rw [e, Int.tmod_eq_emod_of_nonneg (by omega)]; exact Int.emod_eq_of_lt (by omega) (by omega)
      rw [this, if_neg (by omega), Nat.mod_eq_sub_mod (by omega), Nat.mod_eq_of_lt (by omega)]
      omega

/-- the particle in column `x` and row `y` of a lattice with `cols` columns -/
def cellAt (cols x y : Nat) : Nat := y * cols + x

theorem psoCell_eq {cols rows x y : Nat} (hx : x < cols) (hy : y < rows) :
    psoDiff.map (psoCell cols rows (cellAt cols x y)) =
      [cellAt cols ((x + cols - 1) % cols) y, cellAt cols ((x + 1) % cols) y,
       cellAt cols x ((y + rows - 1) % rows), cellAt cols x ((y + 1) % rows)] := by
  have e1 : cellAt cols x y / cols = y := by
    unfold cellAt; rw [Nat.mul_comm, Nat.mul_add_div (by omega), Nat.div_eq_of_lt hx]; omega
  have e2 : cellAt cols x y % cols = x := by
    unfold cellAt; rw [Nat.mul_comm, Nat.mul_add_mod, Nat.mod_eq_of_lt hx]
  obtain ⟨a1, a2, a3⟩ := psoWrap_eq (by omega) hx
  obtain ⟨b1, b2, b3⟩ := psoWrap_eq (by omega) hy
  simp only [psoDiff, List.map_cons, List.map_nil, psoCell, e1, e2, a1, a2, a3, b1, b2, b3]
  unfold cellAt
  refine congrArg₂ _ ?_ (congrArg₂ _ ?_ (congrArg₂ _ ?_ (congrArg₂ _ ?_ rfl))) <;> norm_cast

theorem step_back {c x y : Nat} (hx : x < c) (hy : y < c) : x = (y + c - 1) % c ↔ y = (x + 1) % c := by
  have e1 : (y + c - 1) % c = if y = 0 then c - 1 else y - 1 := by
    split
    · rename_i h; rw [h, Nat.mod_eq_of_lt (by omega)]; omega
    · rw [Nat.mod_eq_sub_mod (by omega), Nat.mod_eq_of_lt (by omega)]; omega
  have e2 : (x + 1) % c = if x + 1 = c then 0 else x + 1 := by
    split
    · rename_i h; rw [h, Nat.mod_self]
    · rw [Nat.mod_eq_of_lt (by omega)]
  rw [e1, e2]
  split <;> split <;> omega

theorem cellAt_inj {cols x y x' y' : Nat} (hx : x < cols) (hx' : x' < cols) (h : cellAt cols x y = cellAt cols x' y') : x = x' ∧ y = y' := by
  have e1 : ∀ a b, a < cols → cellAt cols a b / cols = b := by
    intro a b ha; unfold cellAt; rw [Nat.mul_comm, Nat.mul_add_div (by omega), Nat.div_eq_of_lt ha]; omega
  have e2 : ∀ a b, a < cols → cellAt cols a b % cols = a := by
    intro a b ha; unfold cellAt; rw [Nat.mul_comm, Nat.mul_add_mod, Nat.mod_eq_of_lt ha]
  exact ⟨by rw [← e2 x y hx, h, e2 x' y' hx'], by rw [← e1 x y hx, h, e1 x' y' hx']⟩

/-- C90 (von Neumann). Every swarm is arranged in a full rectangle of at least as many columns as rows, as close to a
square as possible; every particle has the neighbours on its left and right, above and below, wrapping the edges, and
being neighbours is mutual. -/
theorem C90_lattice {n : Nat} (hn : 0 < n) : ∃ (rows cols : Nat) (nb : List (List Nat)), psoVon n = .ok nb ∧
    rows * cols = n ∧ rows ≤ cols ∧ (∀ r c : Nat, r * c = n → r ≤ c → r ≤ rows) ∧ nb.length = n ∧
    (∀ x y : Nat, x < cols → y < rows → nb[cellAt cols x y]? =
      some [cellAt cols ((x + cols - 1) % cols) y, cellAt cols ((x + 1) % cols) y,
        cellAt cols x ((y + rows - 1) % rows), cellAt cols x ((y + 1) % rows)]) ∧
    (∀ p : Nat, p < n → ∃ x y : Nat, x < cols ∧ y < rows ∧ p = cellAt cols x y) ∧
    (∀ (p q : Nat) (l m : List Nat), nb[p]? = some l → nb[q]? = some m → (q ∈ l → q < n) ∧ (q ∈ l ↔ p ∈ m)) := by
  obtain ⟨r, h1, h2, h3, ⟨c, rfl⟩, h5⟩ := psoRows_spec (n := n) (Nat.sqrt n) (Nat.sqrt_pos.mpr hn)
  have hc : r * c / r = c := Nat.mul_div_cancel_left _ h2
  have hle : r ≤ c := by
    have := Nat.le_sqrt.mp h3
    exact Nat.le_of_mul_le_mul_left this h2
  have hcell : ∀ p : Nat, p < r * c → ∃ x y : Nat, x < c ∧ y < r ∧ p = cellAt c x y := by
    intro p hp
    refine ⟨p % c, p / c, Nat.mod_lt _ (by omega), Nat.div_lt_of_lt_mul (by rwa [Nat.mul_comm] at hp), ?_⟩
    unfold cellAt; rw [Nat.mul_comm]; exact (Nat.div_add_mod p c).symm
  have hlt : ∀ x y, x < c → y < r → cellAt c x y < r * c := by
    intro x y hx hy
    unfold cellAt
    have : (y + 1) * c ≤ r * c := Nat.mul_le_mul_right _ hy
    rw [Nat.add_mul] at this
    omega
  have hrow : ∀ x y : Nat, x < c → y < r → ((List.range (r * c)).map (fun p => psoDiff.map (psoCell c r p)))[cellAt c x y]? =
      some [cellAt c ((x + c - 1) % c) y, cellAt c ((x + 1) % c) y,
        cellAt c x ((y + r - 1) % r), cellAt c x ((y + 1) % r)] := by
    intro x y hx hy
    rw [getElem?_map_range]
    exact ⟨hlt x y hx hy, psoCell_eq hx hy⟩
  refine ⟨r, c, (List.range (r * c)).map (fun p => psoDiff.map (psoCell c r p)), ?_, rfl, hle, ?_, by simp, hrow, hcell, ?_⟩
  · unfold psoVon
    rw [h1, Outcome.bind_ok, hc, Outcome.pure_eq]
  · intro r' c' hrc hle'
    refine h5 r' ⟨c', hrc.symm⟩ (Nat.le_sqrt.mpr ?_)
    rw [← hrc]
    exact Nat.mul_le_mul_left _ hle'
  · intro p q l m hl hm
    obtain ⟨x, y, hx, hy, rfl⟩ := hcell p (getElem?_map_range.mp hl).1
    obtain ⟨x', y', hx', hy', rfl⟩ := hcell q (getElem?_map_range.mp hm).1
    rw [hrow x y hx hy, Option.some.injEq] at hl
    rw [hrow x' y' hx' hy', Option.some.injEq] at hm
    refine ⟨fun _ => hlt x' y' hx' hy', ?_⟩
    have hc0 : 0 < c := by omega
    have inj : ∀ {a b a' b' : Nat}, a < c → a' < c → (cellAt c a b = cellAt c a' b' ↔ a = a' ∧ b = b') :=
      fun h h' => ⟨cellAt_inj h h', by rintro ⟨rfl, rfl⟩; rfl⟩
    subst hl
    subst hm
    simp only [List.mem_cons, List.not_mem_nil, or_false]
    rw [inj hx' (Nat.mod_lt _ hc0), inj hx' (Nat.mod_lt _ hc0), inj hx' hx, inj hx' hx, inj hx (Nat.mod_lt _ hc0),
      inj hx (Nat.mod_lt _ hc0), inj hx hx', inj hx hx', step_back hx' hx, step_back hy' hy, step_back hx hx', step_back hy hy']
    tauto

example : psoVon 6 = .ok [[2, 1, 3, 3], [0, 2, 4, 4], [1, 0, 5, 5], [5, 4, 0, 0], [3, 5, 1, 1], [4, 3, 2, 2]] := by decide +kernel

/-! ### The random graph -/

/-- Everybody informs itself, only particles inform, and every particle `p` occurs `k p` times. -/
structure Informed (n : Nat) (k : Nat → Nat) (nb : List (List Nat)) : Prop where
  len : nb.length = n
  only : ∀ l ∈ nb, ∀ q ∈ l, q < n
  count : ∀ p : Nat, nb.flatten.count p = k p

theorem count_push {nb : List (List Nat)} {k p q : Nat} (hk : k < nb.length) :
    (nb.set k (nb[k] ++ [p])).flatten.count q = nb.flatten.count q + if p = q then 1 else 0 := by
  have e : nb = nb.take k ++ nb[k] :: nb.drop (k + 1) := by
    rw [List.cons_getElem_drop_succ, List.take_append_drop]
  have e2 : nb.set k (nb[k] ++ [p]) = nb.take k ++ (nb[k] ++ [p]) :: nb.drop (k + 1) := by
    rw [List.set_eq_take_append_cons_drop, if_pos hk]
  rw [e2]
  conv_rhs => rw [e]
  simp only [List.flatten_append, List.flatten_cons, List.count_append, List.count_cons, List.count_nil]
  by_cases h : p = q <;> simp [h] <;> omega

theorem informed_push {n k p : Nat} {c : Nat → Nat} {nb : List (List Nat)} (h : Informed n c nb) (hk : k < n) (hp : p < n) :
    ∃ nb', psoPush nb k p = .ok nb' ∧ Informed n (fun q => c q + if p = q then 1 else 0) nb' ∧
      (∃ l, nb[k]? = some l ∧ nb' = nb.set k (l ++ [p])) := by
  have hkl : k < nb.length := by rw [h.len]; exact hk
  refine ⟨nb.set k (nb[k] ++ [p]), ?_, ⟨by simp [h.len], ?_, ?_⟩, nb[k], List.getElem?_eq_getElem hkl, rfl⟩
  · unfold psoPush
    rw [Outcome.get_of_lt hkl, Outcome.bind_ok, Outcome.set_of_lt hkl]
  · intro l hl q hq
    rcases List.mem_or_eq_of_mem_set hl with hl | rfl
    · exact h.only l hl q hq
    · rcases List.mem_append.mp hq with hq | hq
      · exact h.only _ (List.getElem_mem hkl) q hq
      · rw [List.mem_singleton.mp hq]; exact hp
  · intro q
    rw [count_push hkl, h.count]

/-- the lists only grow -/
def Grown (nb nb' : List (List Nat)) : Prop := ∀ (p : Nat) (l : List Nat), nb[p]? = some l → ∃ m, nb'[p]? = some (l ++ m)

theorem grown_refl (nb : List (List Nat)) : Grown nb nb := fun p l h => ⟨[], by simpa using h⟩

theorem grown_trans {a b c : List (List Nat)} (h1 : Grown a b) (h2 : Grown b c) : Grown a c := by
  intro p l h
  obtain ⟨m, hm⟩ := h1 p l h
  obtain ⟨m', hm'⟩ := h2 p _ hm
  exact ⟨m ++ m', by rw [hm', List.append_assoc]⟩

theorem grown_set {nb : List (List Nat)} {k p : Nat} {l : List Nat} (h : nb[k]? = some l) : Grown nb (nb.set k (l ++ [p])) := by
  intro q l' hq
  have hk := (List.getElem?_eq_some_iff.mp h).1
  rw [List.getElem?_set]
  by_cases e : k = q
  · subst e
    rw [h, Option.some.injEq] at hq
    subst hq
    simp [hk]
  · rw [if_neg e]; exact ⟨[], by simpa using hq⟩

/-- C90 (adaptive random). Every particle is among its own neighbours, all neighbours are particles of the swarm, and
every particle was given `neighb_param` places: one in its own list, the others anywhere. -/
theorem wp_psoRandom {g : Gen K σ} {rep : K → Prop} (hg : g.Lawful rep) {n param : Nat} (hn : 0 < n) (hp : 1 ≤ param) (s : σ)
    {E : Exn → σ → Prop} :
    wp (psoRandom g n param) (fun nb _ => nb.length = n ∧ (∀ (p : Nat) (l : List Nat), nb[p]? = some l → p ∈ l ∧ ∀ q ∈ l, q < n) ∧
      ∀ p : Nat, nb.flatten.count p = if p < n then param else 0) E s := by
  unfold psoRandom
  refine (wp_range (E := E) (fun i nb _ => Informed n (fun p => if p < i then param else 0) nb ∧
      ∀ (p : Nat) (l : List Nat), p < i → nb[p]? = some l → p ∈ l) n _ s ?_ ?_).mono ?_ (fun _ _ h => h)
  · refine ⟨⟨by simp, ?_, ?_⟩, ?_⟩
    · intro l hl q hq
      rw [(List.mem_replicate.mp hl).2] at hq
      exact absurd hq List.not_mem_nil
    · intro p; simp
    · intro p l h; omega
  · rintro i nb s' hi ⟨hI, hs⟩
    obtain ⟨nb1, e1, hI1, l, hl, rfl⟩ := informed_push hI hi hi
    unfold psoInforms
    rw [e1, wp_bind, wp_lift_ok]
    have := wp_range' (f := psoInform g n i) (E := E) (fun j nb' _ => Informed n (fun p => (if p < i then param else 0) + if i = p then j else 0) nb' ∧
      Grown (nb.set i (l ++ [i])) nb') 1 (param - 1) (nb.set i (l ++ [i])) s' ⟨?_, grown_refl _⟩ ?_
    · refine this.mono ?_ (fun _ _ h => h)
      rintro nb' s'' ⟨h1, h2⟩
      refine ⟨?_, ?_⟩
      · convert h1 using 2 with p
        by_cases hlt : p < i
        · rw [if_pos (by omega), if_pos hlt, if_neg (by omega)]; omega
        · rcases Nat.eq_or_lt_of_le (Nat.le_of_not_lt hlt) with rfl | h'
          · simp; omega
          · rw [if_neg (by omega), if_neg hlt, if_neg (by omega)]
      · intro p l' hp' hl'
        have hil : i < nb.length := by rw [hI.len]; exact hi
        have hpl : p < nb.length := by omega
        by_cases e : i = p
        · subst e
          obtain ⟨m, hm⟩ := h2 i (l ++ [i]) (by rw [List.getElem?_set]; simp [hil])
          rw [hm, Option.some.injEq] at hl'
          subst hl'
          simp
        · obtain ⟨m, hm⟩ := h2 p (nb[p]) (by rw [List.getElem?_set, if_neg e]; exact List.getElem?_eq_getElem hpl)
          rw [hm, Option.some.injEq] at hl'
          subst hl'
          exact List.mem_append_left _ (hs p _ (by omega) (List.getElem?_eq_getElem hpl))
    · exact hI1
    · rintro j nb' s'' _ _ ⟨h1, h2⟩
      unfold psoInform
      rw [wp_bind]
      refine Gen.wp_drawNat hg (Nat.zero_le _) ?_
      intro k s3 _ hk
      obtain ⟨nb2, e2, hI2, l2, hl2, rfl⟩ := informed_push h1 (show k < n by omega) hi
      rw [e2, wp_lift_ok]
      refine ⟨?_, grown_trans h2 (grown_set hl2)⟩
      convert hI2 using 2 with p
      by_cases e : i = p
      · rw [if_pos e, if_pos e, if_pos e]; omega
      · rw [if_neg e, if_neg e, if_neg e]
  · rintro nb s' ⟨h1, h2⟩
    refine ⟨h1.len, fun p l hl => ⟨h2 p l ?_ hl, h1.only l (List.mem_of_getElem? hl)⟩, fun p => h1.count p⟩
    rw [← h1.len]; exact (List.getElem?_eq_some_iff.mp hl).1

/-- C90 (adaptive random), see `wp_psoRandom`: no exceptions. -/
theorem C90_random {g : Gen K σ} {rep : K → Prop} (hg : g.Lawful rep) {n param : Nat} (hn : 0 < n) (hp : 1 ≤ param) (s : σ) :
    ∃ (nb : List (List Nat)) (s' : σ), psoRandom g n param s = (.ok nb, s') ∧ nb.length = n ∧
      (∀ (p : Nat) (l : List Nat), nb[p]? = some l → p ∈ l ∧ ∀ q ∈ l, q < n) ∧
      ∀ p : Nat, p < n → nb.flatten.count p = param := by
  have := wp_psoRandom hg hn hp s (E := fun _ _ => False)
  unfold wp at this
  rcases h : psoRandom g n param s with ⟨_ | _ | _ | _, s'⟩ <;> rw [h] at this
  · obtain ⟨h1, h2, h3⟩ := this
    exact ⟨_, s', rfl, h1, h2, fun p hp => by rw [h3, if_pos hp]⟩
  all_goals exact this.elim

example : ∃ (nb : List (List Nat)) (s' : List ℚ), psoRandom demoGen 5 3 [0, 1, 1] = (.ok nb, s') ∧ nb.length = 5 ∧
      (∀ (p : Nat) (l : List Nat), nb[p]? = some l → p ∈ l ∧ ∀ q ∈ l, q < 5) ∧
      ∀ p : Nat, p < 5 → nb.flatten.count p = 3 := C90_random demoGen_lawful (by decide) (by decide) _

end Verif.Props
