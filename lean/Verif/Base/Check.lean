import Verif.Base.Outcome

/-!
# Argument checks

`Chk o P`: the check `o` passes when `P` holds and throws `std::invalid_argument` when it does not.
-/

set_option autoImplicit false

namespace Verif

/-- A check that decides `P`. -/
def Chk (o : Outcome Unit) (P : Prop) : Prop :=
  (o = .ok () ∧ P) ∨ (o = .throws .invalidArgument ∧ ¬ P)

namespace Chk

theorem ok_iff {o : Outcome Unit} {P : Prop} (h : Chk o P) : o = .ok () ↔ P := by
  rcases h with ⟨h1, h2⟩ | ⟨h1, h2⟩ <;> simp [h1, h2]

theorem throws_iff {o : Outcome Unit} {P : Prop} (h : Chk o P) : o = .throws .invalidArgument ↔ ¬ P := by
  rcases h with ⟨h1, h2⟩ | ⟨h1, h2⟩ <;> simp [h1, h2]

theorem congr {o : Outcome Unit} {P Q : Prop} (h : Chk o P) (e : P ↔ Q) : Chk o Q := by
  rcases h with ⟨h1, h2⟩ | ⟨h1, h2⟩
  · exact Or.inl ⟨h1, e.mp h2⟩
  · exact Or.inr ⟨h1, fun q => h2 (e.mpr q)⟩

theorem pass : Chk (.ok ()) True := Or.inl ⟨rfl, trivial⟩

theorem ite_throw {c : Prop} [Decidable c] {o : Outcome Unit} {P : Prop} (h : ¬ c → Chk o P) :
    Chk (if c then .throws .invalidArgument else o) (¬ c ∧ P) := by
  by_cases hc : c
  · rw [if_pos hc]; exact Or.inr ⟨rfl, fun h => h.1 hc⟩
  · rw [if_neg hc]
    rcases h hc with ⟨h1, h2⟩ | ⟨h1, h2⟩
    · exact Or.inl ⟨h1, hc, h2⟩
    · exact Or.inr ⟨h1, fun h => h2 h.2⟩

theorem seq {o : Outcome Unit} {o' : Unit → Outcome Unit} {P Q : Prop} (h : Chk o P) (h' : P → Chk (o' ()) Q) :
    Chk (o >>= o') (P ∧ Q) := by
  rcases h with ⟨h1, h2⟩ | ⟨h1, h2⟩
  · subst h1
    show Chk (o' ()) (P ∧ Q)
    exact (h' h2).congr (by simp [h2])
  · subst h1; exact Or.inr ⟨rfl, fun h => h2 h.1⟩

theorem forM {α : Type} {f : α → Outcome Unit} {P : α → Prop} {l : List α} (h : ∀ a ∈ l, Chk (f a) (P a)) :
    Chk (l.forM f) (∀ a ∈ l, P a) := by
  induction l with
  | nil => exact Or.inl ⟨rfl, by simp⟩
  | cons a l ih =>
    have := seq (o' := fun _ => l.forM f) (h a (by simp)) (fun _ => ih (fun b hb => h b (by simp [hb])))
    exact (show Chk ((a :: l).forM f) _ from this).congr (by simp)

end Chk
end Verif
