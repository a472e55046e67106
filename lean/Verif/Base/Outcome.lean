/-!
# Outcomes of running a piece of C++ code

A call can return normally, throw, run into undefined behaviour, or (only in the model) exhaust the
fuel given to a `while` loop. The last two are separate constructors, so a theorem that says
"the outcome is `ok`" also says: no exception, no undefined behaviour, the loops terminate.
-/

set_option autoImplicit false

namespace Verif

/-- Exceptions, by C++ type. `user n` is an exception coming out of user code. -/
inductive Exn where
  | invalidArgument
  | overflowError
  | outOfRange
  | runtimeError
  | notImplemented
  | domainError
  | badAlloc
  | badCast
  | user (n : Nat)
  deriving DecidableEq, Repr

/-- Result of running a piece of C++. -/
inductive Outcome (α : Type) where
  | ok (a : α)
  | throws (e : Exn)
  | ub
  | nofuel
  deriving DecidableEq, Repr

namespace Outcome

variable {α β σ : Type}

/-- Sequencing: an exception, undefined behaviour or exhausted fuel ends the run. -/
def bind (o : Outcome α) (f : α → Outcome β) : Outcome β :=
  match o with
  | ok a => f a
  | throws e => throws e
  | ub => ub
  | nofuel => nofuel

instance : Monad Outcome where
  pure := ok
  bind := bind

@[simp] theorem bind_ok (a : α) (f : α → Outcome β) : (ok a >>= f) = f a := rfl
@[simp] theorem bind_throws (e : Exn) (f : α → Outcome β) : (throws e >>= f) = throws e := rfl
@[simp] theorem bind_ub (f : α → Outcome β) : ((ub : Outcome α) >>= f) = ub := rfl
@[simp] theorem bind_nofuel (f : α → Outcome β) : ((nofuel : Outcome α) >>= f) = nofuel := rfl
@[simp] theorem pure_eq (a : α) : (pure a : Outcome α) = ok a := rfl
@[simp] theorem map_ok (f : α → β) (a : α) : f <$> (ok a : Outcome α) = ok (f a) := rfl

instance : LawfulMonad Outcome := LawfulMonad.mk'
  (id_map := by intro α x; cases x <;> rfl)
  (pure_bind := by intros; rfl)
  (bind_assoc := by intro α β γ x f g; cases x <;> rfl)

/-- `v[i]` on a `std::vector`: reading out of range is undefined behaviour. -/
def get (l : List α) (i : Nat) : Outcome α :=
  match l[i]? with
  | some a => ok a
  | none => ub

/-- `v[i] = a` on a `std::vector`: writing out of range is undefined behaviour. -/
def set (l : List α) (i : Nat) (a : α) : Outcome (List α) :=
  if i < l.length then ok (l.set i a) else ub

/-- The run ends normally and the result satisfies `P`. -/
def Sat (o : Outcome α) (P : α → Prop) : Prop := ∃ a, o = ok a ∧ P a

theorem Sat.mono {o : Outcome α} {P Q : α → Prop} (h : o.Sat P) (hpq : ∀ a, P a → Q a) :
    o.Sat Q := by
  obtain ⟨a, rfl, ha⟩ := h; exact ⟨a, rfl, hpq a ha⟩

@[simp] theorem sat_ok {a : α} {P : α → Prop} : (ok a).Sat P ↔ P a := by
  constructor
  · rintro ⟨b, h, hb⟩; cases h; exact hb
  · intro h; exact ⟨a, rfl, h⟩

@[simp] theorem sat_throws {e : Exn} {P : α → Prop} : (throws e).Sat P ↔ False := by
  constructor
  · rintro ⟨b, h, hb⟩; cases h
  · exact False.elim

@[simp] theorem sat_ub {P : α → Prop} : (ub : Outcome α).Sat P ↔ False := by
  constructor
  · rintro ⟨b, h, hb⟩; cases h
  · exact False.elim

@[simp] theorem sat_nofuel {P : α → Prop} : (nofuel : Outcome α).Sat P ↔ False := by
  constructor
  · rintro ⟨b, h, hb⟩; cases h
  · exact False.elim

theorem sat_pure {a : α} {P : α → Prop} : (pure a : Outcome α).Sat P ↔ P a := sat_ok

theorem Sat.bind {o : Outcome α} {f : α → Outcome β} {P : α → Prop} {Q : β → Prop}
    (h : o.Sat P) (hf : ∀ a, P a → (f a).Sat Q) : (o >>= f).Sat Q := by
  obtain ⟨a, rfl, ha⟩ := h; exact hf a ha

theorem Sat.isOk {o : Outcome α} {P : α → Prop} (h : o.Sat P) : ∃ a, o = ok a := by
  obtain ⟨a, h, _⟩ := h; exact ⟨a, h⟩

theorem sat_bind_iff {o : Outcome α} {f : α → Outcome β} {Q : β → Prop} :
    (o >>= f).Sat Q ↔ o.Sat (fun a => (f a).Sat Q) := by
  cases o <;> simp

theorem get_of_lt {l : List α} {i : Nat} (h : i < l.length) : get l i = ok l[i] := by
  simp [get, List.getElem?_eq_getElem h]

theorem get_eq_ok_iff {l : List α} {i : Nat} {a : α} : get l i = ok a ↔ l[i]? = some a := by
  unfold get; cases h : l[i]? <;> simp

theorem set_of_lt {l : List α} {i : Nat} {a : α} (h : i < l.length) :
    set l i a = ok (l.set i a) := by simp [set, h]

/-- Loop rule: `Inv pre s` holds before processing, where `pre` is the processed prefix. -/
theorem foldlM_sat {f : σ → α → Outcome σ} (Inv : List α → σ → Prop) :
    ∀ (l pre : List α) (s : σ), Inv pre s →
      (∀ p a q s, l = p ++ a :: q → Inv (pre ++ p) s → (f s a).Sat (Inv (pre ++ p ++ [a]))) →
      (l.foldlM f s).Sat (Inv (pre ++ l)) := by
  intro l
  induction l with
  | nil => intro pre s h _; simpa [List.foldlM] using h
  | cons a l ih =>
    intro pre s h step
    rw [List.foldlM_cons]
    have h0 := step [] a l s rfl (by simpa using h)
    refine h0.bind ?_
    intro s' hs'
    have := ih (pre ++ [a]) s' (by simpa using hs') ?_
    · simpa using this
    · intro p b q s2 hl h2
      have := step (a :: p) b q s2 (by simp [hl]) (by simpa using h2)
      simpa using this

/-- Loop rule for `for (i = 0; i < n; ++i)`. -/
theorem range_sat {f : σ → Nat → Outcome σ} (Inv : Nat → σ → Prop) (n : Nat) (s : σ)
    (h0 : Inv 0 s) (step : ∀ i s, i < n → Inv i s → (f s i).Sat (Inv (i + 1))) :
    ((List.range n).foldlM f s).Sat (Inv n) := by
  have key := foldlM_sat (f := f) (fun pre s => Inv pre.length s) (List.range n) [] s
    (by simpa using h0) ?_
  · simpa using key
  · intro p a q s hl hinv
    have ha : a = p.length := by
      have := congrArg (fun l => l[p.length]?) hl
      simp at this
      have hlen : p.length < n := by
        have := congrArg List.length hl
        simp at this; omega
      rw [List.getElem?_eq_getElem (by simpa using hlen)] at this
      simpa using this.symm
    have hlt : a < n := by
      have : a ∈ List.range n := by rw [hl]; simp
      simpa using this
    have := step a s hlt (by simpa [ha] using hinv)
    simpa [ha] using this

/-- The run ends normally with `P`, or throws `e`. -/
def SatE (e : Exn) (o : Outcome α) (P : α → Prop) : Prop := o = throws e ∨ o.Sat P

theorem SatE.mono {e : Exn} {o : Outcome α} {P Q : α → Prop} (h : o.SatE e P)
    (hpq : ∀ a, P a → Q a) : o.SatE e Q := h.elim Or.inl (fun h => Or.inr (h.mono hpq))

theorem Sat.satE {e : Exn} {o : Outcome α} {P : α → Prop} (h : o.Sat P) : o.SatE e P := Or.inr h

@[simp] theorem satE_ok {e : Exn} {a : α} {P : α → Prop} : (ok a).SatE e P ↔ P a := by
  simp [SatE]

@[simp] theorem satE_throws {e e' : Exn} {P : α → Prop} : (throws e').SatE e P ↔ e' = e := by
  simp [SatE]

theorem SatE.bind {e : Exn} {o : Outcome α} {f : α → Outcome β} {P : α → Prop} {Q : β → Prop}
    (h : o.SatE e P) (hf : ∀ a, P a → (f a).SatE e Q) : (o >>= f).SatE e Q := by
  rcases h with rfl | ⟨a, rfl, ha⟩
  · exact Or.inl rfl
  · exact hf a ha

theorem foldlM_satE {e : Exn} {f : σ → α → Outcome σ} (Inv : List α → σ → Prop) :
    ∀ (l pre : List α) (s : σ), Inv pre s →
      (∀ p a q s, l = p ++ a :: q → Inv (pre ++ p) s → (f s a).SatE e (Inv (pre ++ p ++ [a]))) →
      (l.foldlM f s).SatE e (Inv (pre ++ l)) := by
  intro l
  induction l with
  | nil => intro pre s h _; simpa [List.foldlM] using h
  | cons a l ih =>
    intro pre s h step
    rw [List.foldlM_cons]
    have h0 := step [] a l s rfl (by simpa using h)
    refine h0.bind ?_
    intro s' hs'
    have := ih (pre ++ [a]) s' (by simpa using hs') ?_
    · simpa using this
    · intro p b q s2 hl h2
      have := step (a :: p) b q s2 (by simp [hl]) (by simpa using h2)
      simpa using this

theorem range_split {n : Nat} {p q : List Nat} {a : Nat} (hl : List.range n = p ++ a :: q) :
    a = p.length ∧ a < n := by
  have hlen : p.length < n := by
    have := congrArg List.length hl
    simp at this; omega
  have ha : a = p.length := by
    have := congrArg (fun l => l[p.length]?) hl
    simp at this
    rw [List.getElem?_eq_getElem (by simpa using hlen)] at this
    simpa using this.symm
  exact ⟨ha, ha ▸ hlen⟩

theorem range_satE {e : Exn} {f : σ → Nat → Outcome σ} (Inv : Nat → σ → Prop) (n : Nat) (s : σ)
    (h0 : Inv 0 s) (step : ∀ i s, i < n → Inv i s → (f s i).SatE e (Inv (i + 1))) :
    ((List.range n).foldlM f s).SatE e (Inv n) := by
  have key := foldlM_satE (e := e) (f := f) (fun pre s => Inv pre.length s) (List.range n) [] s
    (by simpa using h0) ?_
  · simpa using key
  · intro p a q s hl hinv
    obtain ⟨ha, hlt⟩ := range_split hl
    have := step a s hlt (by simpa [ha] using hinv)
    simpa [ha] using this

theorem mapM_ok {f : α → Outcome β} (g : α → β) (l : List α)
    (h : ∀ a ∈ l, f a = ok (g a)) : l.mapM f = ok (l.map g) := by
  induction l with
  | nil => rfl
  | cons a l ih =>
    rw [List.mapM_cons, h a (by simp), bind_ok, ih (fun x hx => h x (by simp [hx]))]
    rfl

theorem mapM_sat_forall₂ {f : α → Outcome β} {P : α → β → Prop} (l : List α)
    (h : ∀ a ∈ l, (f a).Sat (P a)) :
    (l.mapM f).Sat (fun r => r.length = l.length ∧
      ∀ (i : Nat) (a : α) (b : β), l[i]? = some a → r[i]? = some b → P a b) := by
  induction l with
  | nil => simp
  | cons a l ih =>
    rw [List.mapM_cons]
    refine (h a List.mem_cons_self).bind ?_
    intro b hb
    refine (ih (fun x hx => h x (List.mem_cons_of_mem _ hx))).bind ?_
    rintro bs ⟨h1, h2⟩
    simp only [pure_eq, sat_ok]
    refine ⟨by simp [h1], ?_⟩
    intro i x y hx hy
    cases i with
    | zero => simp at hx hy; subst hx; subst hy; exact hb
    | succ i => exact h2 i x y (by simpa using hx) (by simpa using hy)

end Outcome
end Verif
