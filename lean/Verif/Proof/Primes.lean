import Verif.Model.Primes
import Mathlib.Data.Nat.Nth
import Mathlib.Data.Nat.Prime.Defs
import Mathlib.Data.Nat.Prime.Basic

/-! Helper lemmas about the prime table. -/

set_option autoImplicit false

namespace Verif.Disc

open Verif Outcome

/-- no divisor of `n` among `k, k+1, ...` as long as the square does not exceed `n` -/
def noDiv (n : Nat) : Nat → Nat → Bool
  | 0, _ => false
  | fuel + 1, k => if n < k * k then true else if n % k = 0 then false else noDiv n fuel (k + 1)

theorem noDiv_sound (n fuel k : Nat) (h : noDiv n fuel k = true) :
    ∀ m, k ≤ m → m * m ≤ n → ¬ m ∣ n := by
  induction fuel generalizing k with
  | zero => simp [noDiv] at h
  | succ fuel ih =>
    unfold noDiv at h
    intro m hkm hmn hd
    split at h
    · rename_i h1
      have : k * k ≤ m * m := Nat.mul_le_mul hkm hkm
      omega
    · split at h
      · simp at h
      · rename_i h1 h2
        rcases Nat.eq_or_lt_of_le hkm with rfl | hlt
        · exact h2 (Nat.mod_eq_zero_of_dvd hd)
        · exact ih (k + 1) h m hlt hmn hd

theorem noDiv_complete (n fuel k : Nat) (hk : n < (fuel + k) * (fuel + k))
    (h : ∀ m, k ≤ m → m * m ≤ n → ¬ m ∣ n) : noDiv n (fuel + 1) k = true := by
  induction fuel generalizing k with
  | zero =>
    unfold noDiv
    rw [if_pos (by simpa using hk)]
  | succ fuel ih =>
    unfold noDiv
    split
    · rfl
    · rename_i h1
      rw [if_neg (fun h0 => h k le_rfl (by omega) (Nat.dvd_of_mod_eq_zero h0))]
      exact ih (k + 1) (by rw [show fuel + (k + 1) = fuel + 1 + k by omega]; exact hk)
          (fun m hm => h m (by omega))

/-- decidable primality for small numbers -/
def smallPrime (n : Nat) : Bool := decide (2 ≤ n) && noDiv n 121 2

theorem smallPrime_iff (n : Nat) (hn : n < 13500) : smallPrime n = true ↔ n.Prime := by
  unfold smallPrime
  rw [Bool.and_eq_true, decide_eq_true_eq]
  constructor
  · rintro ⟨h2, h⟩
    have h := noDiv_sound n 121 2 h
    rw [Nat.prime_def_le_sqrt]
    refine ⟨h2, fun m hm hms => h m hm ?_⟩
    exact Nat.le_sqrt.mp hms
  · intro hp
    refine ⟨hp.two_le, noDiv_complete n 120 2 (by omega) ?_⟩
    intro m hm hmn hd
    rw [Nat.prime_def_le_sqrt] at hp
    exact hp.2 m hm (Nat.le_sqrt.mpr hmn) hd

/-- the table, entry by entry, is the list of the primes below 13500 (computed by the kernel) -/
theorem table_eq : primeTable = 1 :: (List.range 13500).filter smallPrime := by decide +kernel

theorem filter_range_nth (p : Nat → Prop) [DecidablePred p] (N k a : Nat)
    (h : ((List.range N).filter (fun n => decide (p n)))[k]? = some a) : Nat.nth p k = a := by
  induction N with
  | zero => simp at h
  | succ N ih =>
    have hlen : ((List.range N).filter (fun n => decide (p n))).length = Nat.count p N := by
      rw [Nat.count_eq_card_filter_range, ← List.countP_eq_length_filter]
      simp [Finset.card, Finset.filter, Finset.range, Multiset.range, List.countP_eq_length_filter]
    rw [List.range_succ, List.filter_append] at h
    by_cases hk : k < ((List.range N).filter (fun n => decide (p n))).length
    · rw [List.getElem?_append_left hk] at h
      exact ih h
    · rw [List.getElem?_append_right (by omega)] at h
      by_cases hp : p N
      · rw [List.filter_cons_of_pos (by simpa using hp)] at h
        have h0 : k - ((List.range N).filter (fun n => decide (p n))).length = 0 := by
          have := (List.getElem?_eq_some_iff.mp h).1
          simp at this; omega
        rw [h0] at h
        simp only [List.getElem?_cons_zero, Option.some.injEq] at h
        have hk' : k = Nat.count p N := by omega
        rw [hk', ← h]
        exact Nat.nth_count hp
      · rw [List.filter_cons_of_neg (by simpa using hp)] at h
        simp at h

end Verif.Disc
