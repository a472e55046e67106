import Verif.Model.MultiObjective
import Verif.Spec.MultiObjective

/-! Helper lemmas: `pareto_dominance` agrees with `Spec.Dominates`, order laws. -/

set_option autoImplicit false

namespace Verif.MO

open Verif Outcome Spec

variable {K : Type} [LinearOrder K]

theorem pdLoop_iff (a b : List (Fl K)) (hl : a.length = b.length) (found : Bool) :
    pdLoop a b found = true ↔
      (∀ i (ha : i < a.length) (hb : i < b.length), a[i] ≤ b[i]) ∧
      (found = true ∨ ∃ i, ∃ (ha : i < a.length) (hb : i < b.length), a[i] < b[i]) := by
  induction a generalizing b found with
  | nil =>
    cases b with
    | nil => simp [pdLoop]
    | cons => simp at hl
  | cons x xs ih =>
    cases b with
    | nil => simp at hl
    | cons y ys =>
      have hl' : xs.length = ys.length := by simpa using hl
      unfold pdLoop
      split
      · rename_i h
        rw [Fl.greaterThanF_iff] at h
        simp only [Bool.false_eq_true, false_iff, not_and]
        intro hall
        have := hall 0 (by simp) (by simp)
        exact absurd h (not_lt.mpr (by simpa using this))
      · rename_i h
        rw [Fl.greaterThanF_iff, not_lt] at h
        split
        · rename_i h2
          rw [Fl.lessThanF_iff] at h2
          rw [ih ys hl']
          constructor
          · rintro ⟨h3, _⟩
            refine ⟨?_, Or.inr ⟨0, by simp, by simp, by simpa using h2⟩⟩
            intro i hi hi'
            cases i with
            | zero => simpa using h
            | succ i => simpa using h3 i (by simpa using hi) (by simpa using hi')
          · rintro ⟨h3, _⟩
            refine ⟨?_, Or.inl rfl⟩
            intro i hi hi'
            exact h3 (i + 1) (by simpa using hi) (by simpa using hi')
        · rename_i h2
          rw [Fl.lessThanF_iff] at h2
          rw [ih ys hl']
          constructor
          · rintro ⟨h3, h4⟩
            refine ⟨?_, ?_⟩
            · intro i hi hi'
              cases i with
              | zero => simpa using h
              | succ i => simpa using h3 i (by simpa using hi) (by simpa using hi')
            · rcases h4 with h4 | ⟨i, hi, hi', h4⟩
              · exact Or.inl h4
              · exact Or.inr ⟨i + 1, by simpa using hi, by simpa using hi', by simpa using h4⟩
          · rintro ⟨h3, h4⟩
            refine ⟨?_, ?_⟩
            · intro i hi hi'
              exact h3 (i + 1) (by simpa using hi) (by simpa using hi')
            · rcases h4 with h4 | ⟨i, hi, hi', h4⟩
              · exact Or.inl h4
              · cases i with
                | zero => exact absurd (by simpa using h4) h2
                | succ i => exact Or.inr ⟨i, by simpa using hi, by simpa using hi', by simpa using h4⟩

theorem paretoDominance_spec (a b : List (Fl K)) (hl : a.length = b.length) :
    ∃ r, paretoDominance a b = .ok r ∧ (r = true ↔ Dominates a b) := by
  refine ⟨pdLoop a b false, by simp [paretoDominance, hl], ?_⟩
  rw [pdLoop_iff a b hl]
  simp [Dominates, hl]

theorem dominates_irrefl (a : List (Fl K)) : ¬ Dominates a a := by
  rintro ⟨_, _, i, hi, _, h⟩; exact lt_irrefl _ h

theorem dominates_trans {a b c : List (Fl K)} (h1 : Dominates a b) (h2 : Dominates b c) :
    Dominates a c := by
  obtain ⟨l1, w1, i, hi, hi', s1⟩ := h1
  obtain ⟨l2, w2, _⟩ := h2
  refine ⟨l1.trans l2, ?_, i, hi, by omega, ?_⟩
  · intro j hj hj'
    exact le_trans (w1 j hj (by omega)) (w2 j (by omega) hj')
  · exact lt_of_lt_of_le s1 (w2 i hi' (by omega))

theorem dominates_asymm {a b : List (Fl K)} (h1 : Dominates a b) : ¬ Dominates b a :=
  fun h2 => dominates_irrefl a (dominates_trans h1 h2)

theorem domIdx_irrefl (pts : List (List (Fl K))) (i : Nat) : ¬ DomIdx pts i i := by
  rintro ⟨_, _, h⟩; exact dominates_irrefl _ h

theorem domIdx_trans {pts : List (List (Fl K))} {i j k : Nat} (h1 : DomIdx pts i j)
    (h2 : DomIdx pts j k) : DomIdx pts i k := by
  obtain ⟨a, b, h1⟩ := h1
  obtain ⟨_, d, h2⟩ := h2
  exact ⟨a, d, dominates_trans h1 h2⟩

theorem domIdx_asymm {pts : List (List (Fl K))} {i j : Nat} (h1 : DomIdx pts i j) :
    ¬ DomIdx pts j i := fun h2 => domIdx_irrefl _ _ (domIdx_trans h1 h2)

end Verif.MO
