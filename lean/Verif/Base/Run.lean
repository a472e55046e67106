import Verif.Base.Outcome

/-!
# Stateful C++ code with exceptions

`Run σ α` is a piece of code working on a state `σ`. The state survives an exception, so statements
about what a throwing call leaves behind can be made.
-/

set_option autoImplicit false

namespace Verif

/-- Code with state `σ` and result `α`. -/
def Run (σ α : Type) : Type := σ → Outcome α × σ

namespace Run

variable {σ α β : Type}

/-- sequencing -/
def bind (m : Run σ α) (f : α → Run σ β) : Run σ β := fun s =>
  match m s with
  | (.ok a, s') => f a s'
  | (.throws e, s') => (.throws e, s')
  | (.ub, s') => (.ub, s')
  | (.nofuel, s') => (.nofuel, s')

instance : Monad (Run σ) where
  pure a := fun s => (.ok a, s)
  bind := bind

/-- read the state -/
def get : Run σ σ := fun s => (.ok s, s)

/-- overwrite the state -/
def set (s : σ) : Run σ Unit := fun _ => (.ok (), s)

/-- change the state -/
def modify (f : σ → σ) : Run σ Unit := fun s => (.ok (), f s)

/-- `throw e` -/
def throw (e : Exn) : Run σ α := fun s => (.throws e, s)

/-- code that does not touch the state -/
def lift (o : Outcome α) : Run σ α := fun s => (o, s)

/-- `try { m } catch (...) { h }` -/
def tryCatch (m : Run σ α) (h : Exn → Run σ α) : Run σ α := fun s =>
  match m s with
  | (.throws e, s') => h e s'
  | r => r

/-- Started in `s`, the code ends normally with `Q` or throws with `E`; no undefined behaviour, no
exhausted fuel. -/
def wp (m : Run σ α) (Q : α → σ → Prop) (E : Exn → σ → Prop) (s : σ) : Prop :=
  match m s with
  | (.ok a, s') => Q a s'
  | (.throws e, s') => E e s'
  | _ => False

theorem wp_pure {a : α} {Q : α → σ → Prop} {E : Exn → σ → Prop} {s : σ} :
    wp (pure a : Run σ α) Q E s ↔ Q a s := Iff.rfl

theorem wp_bind {m : Run σ α} {f : α → Run σ β} {Q : β → σ → Prop} {E : Exn → σ → Prop} {s : σ} :
    wp (m >>= f) Q E s ↔ wp m (fun a s' => wp (f a) Q E s') E s := by
  show wp (bind m f) Q E s ↔ _
  unfold wp bind
  rcases m s with ⟨_ | _ | _ | _, s'⟩ <;> simp

theorem wp_get {Q : σ → σ → Prop} {E : Exn → σ → Prop} {s : σ} :
    wp (get : Run σ σ) Q E s ↔ Q s s := Iff.rfl

theorem wp_set {t : σ} {Q : Unit → σ → Prop} {E : Exn → σ → Prop} {s : σ} :
    wp (set t) Q E s ↔ Q () t := Iff.rfl

theorem wp_modify {f : σ → σ} {Q : Unit → σ → Prop} {E : Exn → σ → Prop} {s : σ} :
    wp (modify f) Q E s ↔ Q () (f s) := Iff.rfl

theorem wp_throw {e : Exn} {Q : α → σ → Prop} {E : Exn → σ → Prop} {s : σ} :
    wp (throw e : Run σ α) Q E s ↔ E e s := Iff.rfl

theorem wp_lift {o : Outcome α} {Q : α → σ → Prop} {E : Exn → σ → Prop} {s : σ} :
    wp (lift o) Q E s ↔ (match o with
      | .ok a => Q a s
      | .throws e => E e s
      | _ => False) := by
  unfold wp lift; cases o <;> rfl

theorem wp_lift_ok {a : α} {Q : α → σ → Prop} {E : Exn → σ → Prop} {s : σ} :
    wp (lift (.ok a)) Q E s ↔ Q a s := Iff.rfl

theorem wp_lift_throws {e : Exn} {Q : α → σ → Prop} {E : Exn → σ → Prop} {s : σ} :
    wp (lift (.throws e : Outcome α)) Q E s ↔ E e s := Iff.rfl

theorem wp_tryCatch {m : Run σ α} {h : Exn → Run σ α} {Q : α → σ → Prop} {E : Exn → σ → Prop} {s : σ} :
    wp (tryCatch m h) Q E s ↔ wp m Q (fun e s' => wp (h e) Q E s') s := by
  unfold wp tryCatch
  rcases m s with ⟨_ | _ | _ | _, s'⟩ <;> simp

theorem wp_ite {c : Prop} [Decidable c] {m n : Run σ α} {Q : α → σ → Prop} {E : Exn → σ → Prop} {s : σ} :
    wp (if c then m else n) Q E s ↔ (c → wp m Q E s) ∧ (¬ c → wp n Q E s) := by
  split <;> simp_all

theorem wp.mono {m : Run σ α} {Q Q' : α → σ → Prop} {E E' : Exn → σ → Prop} {s : σ} (h : wp m Q E s)
    (hq : ∀ a s, Q a s → Q' a s) (he : ∀ e s, E e s → E' e s) : wp m Q' E' s := by
  unfold wp at *
  rcases hm : m s with ⟨_ | _ | _ | _, s'⟩ <;> rw [hm] at h
  · exact hq _ _ h
  · exact he _ _ h
  · exact h
  · exact h

theorem wp.and {m : Run σ α} {Q Q' : α → σ → Prop} {E E' : Exn → σ → Prop} {s : σ} (h : wp m Q E s)
    (h' : wp m Q' E' s) : wp m (fun a s => Q a s ∧ Q' a s) (fun e s => E e s ∧ E' e s) s := by
  unfold wp at *
  rcases hm : m s with ⟨_ | _ | _ | _, s'⟩ <;> rw [hm] at h h' <;> simp_all

theorem wp_iff_exists {m : Run σ α} {Q : α → σ → Prop} {E : Exn → σ → Prop} {s : σ} :
    wp m Q E s ↔ (∃ a s', m s = (.ok a, s') ∧ Q a s') ∨ (∃ e s', m s = (.throws e, s') ∧ E e s') := by
  unfold wp
  rcases hm : m s with ⟨a | e | _ | _, s'⟩
  · constructor
    · intro h; exact Or.inl ⟨a, s', rfl, h⟩
    · rintro (⟨a', t, h1, h2⟩ | ⟨e', t, h1, h2⟩)
      · cases h1; exact h2
      · cases h1
  · constructor
    · intro h; exact Or.inr ⟨e, s', rfl, h⟩
    · rintro (⟨a', t, h1, h2⟩ | ⟨e', t, h1, h2⟩)
      · cases h1
      · cases h1; exact h2
  · simp
  · simp

/-- Loops: `Inv p b s` holds after the elements `p` have been processed. -/
theorem wp_foldlM {f : β → α → Run σ β} {E : Exn → σ → Prop} (Inv : List α → β → σ → Prop) :
    ∀ (l : List α) (b : β) (s : σ), Inv [] b s →
    (∀ (p : List α) (a : α) (q : List α) (b : β) (s : σ), l = p ++ a :: q → Inv p b s →
      wp (f b a) (fun b' s' => Inv (p ++ [a]) b' s') E s) →
    wp (l.foldlM f b) (fun b' s' => Inv l b' s') E s := by
  have gen : ∀ (q p : List α) (b : β) (s : σ) , Inv p b s →
      (∀ (p' : List α) (a : α) (q' : List α) (b : β) (s : σ), p ++ q = p' ++ a :: q' → Inv p' b s →
        wp (f b a) (fun b' s' => Inv (p' ++ [a]) b' s') E s) →
      wp (q.foldlM f b) (fun b' s' => Inv (p ++ q) b' s') E s := by
    intro q
    induction q with
    | nil => intro p b s h _; simpa [List.foldlM_nil, wp_pure] using h
    | cons a q ih =>
      intro p b s h hs
      rw [List.foldlM_cons, wp_bind]
      refine (hs p a q b s rfl h).mono ?_ (fun _ _ h => h)
      intro b' s' h'
      have := ih (p ++ [a]) b' s' h' (fun p' a' q' b s he => hs p' a' q' b s (by simpa using he))
      simpa using this
  intro l b s h hs
  exact gen l [] b s h hs

/-- Loops over `0 … n - 1`. -/
theorem wp_range {f : β → Nat → Run σ β} {E : Exn → σ → Prop} (Inv : Nat → β → σ → Prop) (n : Nat) (b : β) (s : σ)
    (h0 : Inv 0 b s)
    (hs : ∀ (i : Nat) (b : β) (s : σ), i < n → Inv i b s → wp (f b i) (fun b' s' => Inv (i + 1) b' s') E s) :
    wp ((List.range n).foldlM f b) (fun b' s' => Inv n b' s') E s := by
  have := wp_foldlM (f := f) (E := E) (fun p b s => Inv p.length b s) (List.range n) b s h0
    (by
      intro p a q b s hl hi
      obtain ⟨h1, h2⟩ : a = p.length ∧ p.length < n := by
        have hlen : (List.range n)[p.length]? = some a := by rw [hl]; simp
        have := List.getElem?_eq_some_iff.mp hlen
        obtain ⟨h1, h2⟩ := this
        simp at h1 h2
        exact ⟨h2.symm, h1⟩
      subst h1
      have := hs p.length b s h2 hi
      simpa using this)
  simpa using this

/-- Loops over `m … m + n - 1`. -/
theorem wp_range' {f : β → Nat → Run σ β} {E : Exn → σ → Prop} (Inv : Nat → β → σ → Prop) (m n : Nat) (b : β) (s : σ)
    (h0 : Inv m b s)
    (hs : ∀ (i : Nat) (b : β) (s : σ), m ≤ i → i < m + n → Inv i b s →
      wp (f b i) (fun b' s' => Inv (i + 1) b' s') E s) :
    wp ((List.range' m n).foldlM f b) (fun b' s' => Inv (m + n) b' s') E s := by
  have := wp_foldlM (f := f) (E := E) (fun p b s => Inv (m + p.length) b s) (List.range' m n) b s h0
    (by
      intro p a q b s hl hi
      obtain ⟨h1, h2⟩ : a = m + p.length ∧ p.length < n := by
        have hlen : (List.range' m n)[p.length]? = some a := by rw [hl]; simp
        have := List.getElem?_eq_some_iff.mp hlen
        obtain ⟨h1, h2⟩ := this
        simp at h1 h2
        exact ⟨h2.symm, h1⟩
      subst h1
      have := hs (m + p.length) b s (by omega) (by omega) hi
      simpa [Nat.add_assoc] using this)
  simpa using this

theorem wp_lift_get {l : List α} {i : Nat} {Q : α → σ → Prop} {E : Exn → σ → Prop} {s : σ} (h : i < l.length) :
    wp (lift (Outcome.get l i)) Q E s ↔ Q l[i] s := by
  rw [Outcome.get_of_lt h]; exact wp_lift_ok

theorem wp_lift_set {l : List α} {i : Nat} {a : α} {Q : List α → σ → Prop} {E : Exn → σ → Prop} {s : σ}
    (h : i < l.length) : wp (lift (Outcome.set l i a)) Q E s ↔ Q (l.set i a) s := by
  rw [Outcome.set_of_lt h]; exact wp_lift_ok

end Run
end Verif
