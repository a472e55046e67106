import Verif.Base.Outcome
import Mathlib.Data.List.Perm.Basic
import Mathlib.Data.List.Nodup
import Mathlib.Data.List.Range

/-!
# std::sort

`std::sort(first, last, comp)` requires `comp` to be a strict weak ordering on the elements of the
range; otherwise the behaviour is undefined. If it is, the result is some permutation of the range in
which no element is smaller than one placed before it. Nothing more is specified (the sort is not
stable), so the model takes an arbitrary function `srt` with that contract.
-/

set_option autoImplicit false

namespace Verif

variable {α : Type}

/-- `comp` behaves as a strict weak ordering on the elements of `l`: irreflexive, transitive, and
incomparability is transitive (C++ named requirement *Compare*). -/
def swoOn (lt : α → α → Bool) (l : List α) : Bool :=
  l.all (fun a => !lt a a) &&
  l.all (fun a => l.all (fun b => l.all (fun c => !(lt a b && lt b c) || lt a c))) &&
  l.all (fun a => l.all (fun b => l.all (fun c =>
    !(!lt a b && !lt b a && !lt b c && !lt c b) || (!lt a c && !lt c a))))

theorem swoOn_iff {lt : α → α → Bool} {l : List α} : swoOn lt l = true ↔
    (∀ a ∈ l, lt a a = false) ∧
    (∀ a ∈ l, ∀ b ∈ l, ∀ c ∈ l, lt a b = true → lt b c = true → lt a c = true) ∧
    (∀ a ∈ l, ∀ b ∈ l, ∀ c ∈ l, lt a b = false → lt b a = false → lt b c = false →
      lt c b = false → lt a c = false ∧ lt c a = false) := by
  unfold swoOn
  simp only [Bool.and_eq_true, List.all_eq_true, Bool.or_eq_true, Bool.not_eq_true',
    Bool.and_eq_false_iff]
  constructor
  · rintro ⟨⟨h1, h2⟩, h3⟩
    refine ⟨h1, ?_, ?_⟩
    · intro a ha b hb c hc hab hbc
      rcases h2 a ha b hb c hc with (h | h) | h <;> simp_all
    · intro a ha b hb c hc w x y z
      have := h3 a ha b hb c hc
      simp_all
  · rintro ⟨h1, h2, h3⟩
    refine ⟨⟨h1, ?_⟩, ?_⟩
    · intro a ha b hb c hc
      have := h2 a ha b hb c hc
      cases hab : lt a b <;> cases hbc : lt b c <;> simp_all
    · intro a ha b hb c hc
      have := h3 a ha b hb c hc
      cases h1 : lt a b <;> cases h2 : lt b a <;> cases h3 : lt b c <;> cases h4 : lt c b <;>
        simp_all

/-- Postcondition of `std::sort`. -/
structure IsSorted (lt : α → α → Bool) (inp out : List α) : Prop where
  perm : out.Perm inp
  sorted : out.Pairwise (fun a b => lt b a = false)

/-- The contract of the sort routine of the standard library in use. -/
def ValidSort (srt : (α → α → Bool) → List α → List α) : Prop :=
  ∀ lt l, swoOn lt l = true → IsSorted lt l (srt lt l)

/-- A call of `std::sort`: undefined behaviour if the comparator is not a strict weak ordering. -/
def stdSort (srt : (α → α → Bool) → List α → List α) (lt : α → α → Bool) (l : List α) :
    Outcome (List α) :=
  if swoOn lt l then .ok (srt lt l) else .ub

theorem stdSort_sat {srt : (α → α → Bool) → List α → List α} (hs : ValidSort srt)
    {lt : α → α → Bool} {l : List α} (h : swoOn lt l = true) :
    (stdSort srt lt l).Sat (IsSorted lt l) := by
  simp [stdSort, h]; exact hs lt l h

/-- A comparator that compares keys of a linear order is a strict weak ordering. -/
theorem swoOn_of_key {β : Type} [LinearOrder β] {lt : α → α → Bool} {l : List α} (key : α → β)
    (h : ∀ a ∈ l, ∀ b ∈ l, lt a b = true ↔ key a < key b) : swoOn lt l = true := by
  have h' : ∀ a ∈ l, ∀ b ∈ l, lt a b = false ↔ ¬ key a < key b := by
    intro a ha b hb; rw [← h a ha b hb]; simp
  rw [swoOn_iff]
  refine ⟨fun a ha => ?_, fun a ha b hb c hc => ?_, fun a ha b hb c hc => ?_⟩
  · rw [h' a ha a ha]; exact lt_irrefl _
  · rw [h a ha b hb, h b hb c hc, h a ha c hc]; exact lt_trans
  · rw [h' a ha b hb, h' b hb a ha, h' b hb c hc, h' c hc b hb, h' a ha c hc, h' c hc a ha]
    simp only [not_lt]
    intro h1 h2 h3 h4
    exact ⟨le_trans h3 h1, le_trans h2 h4⟩

/-! ### A concrete sort meeting the contract (so the contract is satisfiable) -/

/-- insertion into a sorted list -/
def insSorted (lt : α → α → Bool) (a : α) : List α → List α
  | [] => [a]
  | b :: l => if lt a b then a :: b :: l else b :: insSorted lt a l

/-- insertion sort, used only to exhibit a routine with the contract of `std::sort` -/
def insSort (lt : α → α → Bool) : List α → List α
  | [] => []
  | a :: l => insSorted lt a (insSort lt l)

theorem insSorted_perm (lt : α → α → Bool) (a : α) (l : List α) :
    (insSorted lt a l).Perm (a :: l) := by
  induction l with
  | nil => exact List.Perm.refl _
  | cons b l ih =>
    unfold insSorted; split
    · exact List.Perm.refl _
    · exact (List.Perm.cons b ih).trans (List.Perm.swap a b l)

theorem insSort_perm (lt : α → α → Bool) (l : List α) : (insSort lt l).Perm l := by
  induction l with
  | nil => exact List.Perm.refl _
  | cons b l ih => exact (insSorted_perm lt b _).trans (List.Perm.cons b ih)

theorem insSort_sorted (lt : α → α → Bool) (l : List α) (h : swoOn lt l = true) :
    (insSort lt l).Pairwise (fun a b => lt b a = false) := by
  rw [swoOn_iff] at h
  obtain ⟨irr, tr, inc⟩ := h
  -- consequences on all of `l`
  have asym : ∀ a ∈ l, ∀ b ∈ l, lt a b = true → lt b a = false := by
    intro a ha b hb hab
    by_contra hba
    have := tr a ha b hb a ha hab (by simpa using hba)
    simp [irr a ha] at this
  have ntr : ∀ a ∈ l, ∀ b ∈ l, ∀ c ∈ l, lt b a = false → lt c b = false → lt c a = false := by
    intro a ha b hb c hc hba hcb
    by_contra hca
    have hca : lt c a = true := by simpa using hca
    cases hab : lt a b with
    | true => have := tr c hc a ha b hb hca hab; simp [hcb] at this
    | false =>
      cases hbc : lt b c with
      | true => have := tr b hb c hc a ha hbc hca; simp [hba] at this
      | false => have := (inc a ha b hb c hc hab hba hbc hcb).2; simp [hca] at this
  have main : ∀ m : List α, (∀ x ∈ m, x ∈ l) →
      (insSort lt m).Pairwise (fun a b => lt b a = false) := by
    intro m
    induction m with
    | nil => intro _; exact List.Pairwise.nil
    | cons a m ih =>
      intro hm
      have hs := ih (fun x hx => hm x (List.mem_cons_of_mem _ hx))
      have ha : a ∈ l := hm a List.mem_cons_self
      have hmem : ∀ x ∈ insSort lt m, x ∈ l := fun x hx =>
        hm x (List.mem_cons_of_mem _ ((insSort_perm lt m).mem_iff.mp hx))
      show (insSorted lt a (insSort lt m)).Pairwise _
      generalize insSort lt m = s at hs hmem
      induction s with
      | nil => simp [insSorted]
      | cons b s ihs =>
        rw [List.pairwise_cons] at hs
        have hb : b ∈ l := hmem b List.mem_cons_self
        unfold insSorted
        split
        · rename_i hab
          rw [List.pairwise_cons]
          refine ⟨?_, List.pairwise_cons.mpr hs⟩
          intro x hx
          rcases List.mem_cons.mp hx with rfl | hx
          · exact asym _ ha _ hb hab
          · exact ntr a ha b hb x (hmem x (List.mem_cons_of_mem _ hx)) (asym _ ha _ hb hab)
              (hs.1 x hx)
        · rename_i hab
          have hab : lt a b = false := by simpa using hab
          rw [List.pairwise_cons]
          refine ⟨?_, ihs hs.2 (fun x hx => hmem x (List.mem_cons_of_mem _ hx))⟩
          intro x hx
          rcases List.mem_cons.mp ((insSorted_perm lt a s).mem_iff.mp hx) with rfl | hx
          · exact hab
          · exact hs.1 x hx
  exact main l (fun x hx => hx)

/-- The contract of `std::sort` is satisfiable. -/
theorem insSort_valid : ValidSort (α := α) insSort := fun lt l h =>
  ⟨insSort_perm lt l, insSort_sorted lt l h⟩

end Verif
