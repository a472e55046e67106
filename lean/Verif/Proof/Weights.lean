import Verif.Model.Decompose
import Mathlib.Data.Nat.Choose.Sum
import Mathlib.Algebra.BigOperators.Intervals
import Mathlib.Algebra.Order.BigOperators.Group.List

/-! Helper lemmas for the grid weights: enumeration of compositions. -/

set_option autoImplicit false

namespace Verif.Dec

open Verif Outcome

/-- the `m`-tuples of naturals with sum `s`, in lexicographic order -/
def comps : Nat → Nat → List (List Nat)
  | 0, _ => []
  | 1, s => [[s]]
  | m + 2, s => (List.range (s + 1)).flatMap (fun x => (comps (m + 1) (s - x)).map (x :: ·))

theorem mem_comps (m s : Nat) (v : List Nat) :
    v ∈ comps (m + 1) s ↔ v.length = m + 1 ∧ v.sum = s := by
  induction m generalizing s v with
  | zero =>
    rw [comps, List.mem_singleton]
    constructor
    · rintro rfl; simp
    · rintro ⟨h1, h2⟩
      match v, h1 with
      | [a], _ => simpa using h2
  | succ m ih =>
    rw [comps, List.mem_flatMap]
    constructor
    · rintro ⟨x, hx, hv⟩
      rw [List.mem_range] at hx
      obtain ⟨t, ht, rfl⟩ := List.mem_map.mp hv
      rw [ih] at ht
      refine ⟨by simp [ht.1], ?_⟩
      rw [List.sum_cons, ht.2]; omega
    · rintro ⟨h1, h2⟩
      match v, h1 with
      | x :: t, h1 =>
        rw [List.sum_cons] at h2
        refine ⟨x, List.mem_range.mpr (by omega), List.mem_map.mpr ⟨t, ?_, rfl⟩⟩
        rw [ih]
        exact ⟨by simpa using h1, by omega⟩

theorem nodup_comps (m s : Nat) : (comps (m + 1) s).Nodup := by
  induction m generalizing s with
  | zero => simp [comps]
  | succ m ih =>
    rw [comps, List.nodup_flatMap]
    refine ⟨fun x _ => (ih _).map (fun a b h => by simpa using h), ?_⟩
    refine List.nodup_range.pairwise_of_forall_ne ?_
    intro a _ b _ hab
    rw [Function.onFun, List.disjoint_left]
    intro v hv hv'
    obtain ⟨t, _, rfl⟩ := List.mem_map.mp hv
    obtain ⟨t', _, h⟩ := List.mem_map.mp hv'
    exact hab (List.cons.inj h).1.symm

theorem sum_map_range {M : Type} [AddCommMonoid M] (f : Nat → M) (n : Nat) :
    ((List.range n).map f).sum = ∑ x ∈ Finset.range n, f x := by
  induction n with
  | zero => simp
  | succ n ih => rw [List.range_succ, Finset.sum_range_succ]; simp [ih]

theorem length_comps (m s : Nat) : (comps (m + 1) s).length = (s + m).choose m := by
  induction m generalizing s with
  | zero => simp [comps]
  | succ m ih =>
    rw [comps, List.length_flatMap]
    simp only [List.length_map, ih]
    have h1 : ((List.range (s + 1)).map (fun x => (s - x + m).choose m)).sum =
        ∑ x ∈ Finset.range (s + 1), (s - x + m).choose m := by
      exact sum_map_range _ _
    rw [h1]
    have h2 := Finset.sum_range_reflect (fun x => (x + m).choose m) (s + 1)
    simp only [Nat.add_sub_cancel] at h2
    rw [h2, Nat.sum_range_add_choose]
    congr 1

/-- nothing is produced when the remaining sum is too large (in particular after a wrap) -/
theorem reksum_large (H m s : Nat) (eggs : List Nat) (hs : s < 2 ^ 64) (h : (m + 1) * H < s) :
    reksum (List.range (H + 1)) (m + 1) s eggs = [] := by
  induction m generalizing s eggs with
  | zero =>
    rw [reksum, if_neg]
    simp
    omega
  | succ m ih =>
    rw [reksum, List.flatMap_eq_nil_iff]
    intro x hx
    rw [List.mem_range] at hx
    have e : (m + 1 + 1) * H = (m + 1) * H + H := by ring
    have hxs : x ≤ s := by
      have : H ≤ (m + 1 + 1) * H := by rw [e]; omega
      omega
    have : (s + 2 ^ 64 - x) % 2 ^ 64 = s - x := by
      rw [show s + 2 ^ 64 - x = (s - x) + 2 ^ 64 by omega, Nat.add_mod_right, Nat.mod_eq_of_lt (by omega)]
    rw [this]
    exact ih _ _ (by omega) (by omega)

theorem reksum_comps (H m s : Nat) (eggs : List Nat) (hs : s ≤ H) (h1 : m * H < 2 ^ 64)
    (h2 : (m + 1) * H < 2 ^ 64 ∨ s = H) (hH : H < 2 ^ 64) :
    reksum (List.range (H + 1)) (m + 1) s eggs = (comps (m + 1) s).map (eggs ++ ·) := by
  induction m generalizing s eggs with
  | zero =>
    rw [reksum, if_pos (by simp; omega)]
    simp [comps]
  | succ m ih =>
    rw [reksum, comps, show H + 1 = (s + 1) + (H - s) by omega, List.range_add, List.flatMap_append]
    have e2 : ((List.range (H - s)).map (s + 1 + ·)).flatMap (fun x =>
        reksum (List.range (s + 1) ++ (List.range (H - s)).map (s + 1 + ·)) (m + 1)
          ((s + 2 ^ 64 - x) % 2 ^ 64) (eggs ++ [x])) = [] := by
      rw [List.flatMap_eq_nil_iff]
      intro x hx
      obtain ⟨y, hy, rfl⟩ := List.mem_map.mp hx
      rw [List.mem_range] at hy
      rw [← List.range_add, show (s + 1) + (H - s) = H + 1 by omega]
      have hm : (s + 2 ^ 64 - (s + 1 + y)) % 2 ^ 64 = 2 ^ 64 - (y + 1) := by
        rw [Nat.mod_eq_of_lt (by omega)]; omega
      rw [hm]
      apply reksum_large
      · omega
      · have e : (m + 1 + 1) * H = (m + 1) * H + H := by ring
        rcases h2 with h2 | h2
        · omega
        · omega
    rw [e2, List.append_nil, List.map_flatMap]
    apply List.flatMap_congr
    intro x hx
    rw [List.mem_range] at hx
    rw [← List.range_add, show (s + 1) + (H - s) = H + 1 by omega]
    have hm : (s + 2 ^ 64 - x) % 2 ^ 64 = s - x := by
      rw [show s + 2 ^ 64 - x = (s - x) + 2 ^ 64 by omega, Nat.add_mod_right, Nat.mod_eq_of_lt (by omega)]
    rw [hm, ih (s - x) (eggs ++ [x]) (by omega) (by
      have e : (m + 1) * H = m * H + H := by ring
      omega) (Or.inl h1)]
    simp [List.map_map, Function.comp_def]

/-- `1 + H k ≤ C(H + k, k)` -/
theorem one_add_mul_le_choose (H k : Nat) : 1 + H * k ≤ (H + k).choose k := by
  induction k with
  | zero => simp
  | succ k ih =>
    have h1 : (H + (k + 1)).choose (k + 1) = (H + k).choose k + (H + k).choose (k + 1) := by
      rw [← Nat.add_assoc, Nat.choose_succ_succ]
    rcases Nat.eq_zero_or_pos H with rfl | hH
    · simp [Nat.choose_self]
    · have h2 : H ≤ (H + k).choose (k + 1) := by
        obtain ⟨h, rfl⟩ : ∃ h, H = h + 1 := ⟨H - 1, by omega⟩
        rw [Nat.choose_symm_of_eq_add (show h + 1 + k = (k + 1) + h by omega)]
        clear ih h1
        induction k with
        | zero => simp [Nat.choose_succ_self_right]
        | succ k ih =>
          have := Nat.choose_le_choose h (show h + 1 + k ≤ h + 1 + (k + 1) by omega)
          omega
      rw [h1]
      have : H * (k + 1) = H * k + H := by ring
      omega

theorem gridSearch_sat (nf nw fuel H : Nat) (hnf : 2 ≤ nf) (hH : 1 ≤ H)
    (hprev : (H - 1 + nf - 1).choose (nf - 1) ≤ nw) (hf : nw + 1 < fuel + H) :
    (gridSearch nf nw fuel H).Sat (fun r => 1 ≤ r ∧ (r - 1 + nf - 1).choose (nf - 1) ≤ nw ∧
      nw < (r + nf - 1).choose (nf - 1)) := by
  induction fuel generalizing H with
  | zero =>
    exfalso
    have := one_add_mul_le_choose (H - 1) (nf - 1)
    rw [show H - 1 + (nf - 1) = H - 1 + nf - 1 by omega] at this
    have h2 : H - 1 ≤ (H - 1) * (nf - 1) := Nat.le_mul_of_pos_right _ (by omega)
    omega
  | succ fuel ih =>
    unfold gridSearch
    split
    · rename_i h
      exact ih (H + 1) (by omega) (by simpa using h) (by omega)
    · rename_i h
      rw [sat_ok]
      exact ⟨hH, hprev, by omega⟩

end Verif.Dec
