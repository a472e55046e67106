import Verif.Spec.Wrapper

/-! # Lemmas about the wrappers -/

set_option autoImplicit false

namespace Verif.Wrap

open Verif Spec.Value

variable {σ M : Type}

/-- what holds of the machine between operations: the variables (the temporary too) hold `T`, one owner, addresses below `next` -/
structure Rep (s : Mach σ M) (T : Var → Option (Option (σ × M))) : Prop where
  holds : ∀ v, Holds s v (T v)
  own : ∀ v v' a, Owns s v a → Owns s v' a → v = v'
  owned : ∀ a u, s.heap a = some u → ∃ v, Owns s v a
  below : ∀ a u, s.heap a = some u → a < s.next

theorem put_same {α β : Type} [DecidableEq α] (f : α → β) (a : α) (b : β) : put f a b a = b := if_pos rfl

theorem put_ne {α β : Type} [DecidableEq α] (f : α → β) {a x : α} (b : β) (h : x ≠ a) : put f a b x = f x := if_neg h

theorem put_put {α β : Type} [DecidableEq α] (f : α → β) (a : α) (b c : β) : put (put f a b) a c = put f a c := by
  funext x
  unfold put
  by_cases h : x = a <;> simp [h]

theorem put_self {α β : Type} [DecidableEq α] (f : α → β) (a : α) (b : β) (h : f a = b) : put f a b = f := by
  funext x
  unfold put
  by_cases hx : x = a
  · rw [if_pos hx, hx, h]
  · rw [if_neg hx]

theorem put_comm {α β : Type} [DecidableEq α] (f : α → β) {a a' : α} (b b' : β) (h : a ≠ a') :
    put (put f a b) a' b' = put (put f a' b') a b := by
  funext x
  unfold put
  by_cases h1 : x = a'
  · rw [if_pos h1, if_neg (by rw [h1]; exact fun e => h e.symm), if_pos h1]
  · rw [if_neg h1, if_neg h1]

/-- a variable keeps what it holds if its entry and its object stay -/
theorem holds_congr {s s' : Mach σ M} {v : Var} {x : Option (Option (σ × M))} (h : Holds s v x) (hv : s'.vars v = s.vars v)
    (hh : ∀ a, Owns s v a → s'.heap a = s.heap a) : Holds s' v x := by
  match x with
  | none => exact hv.trans h
  | some none =>
    obtain ⟨m, h⟩ := h
    exact ⟨m, hv.trans h⟩
  | some (some (u, m)) =>
    obtain ⟨a, h1, h2⟩ := h
    exact ⟨a, hv.trans h1, (hh a ⟨m, h1⟩).trans h2⟩

/-- an owned address is allocated -/
theorem Rep.alive {s : Mach σ M} {T : Var → Option (Option (σ × M))} (h : Rep s T) {v : Var} {a : Nat} (ho : Owns s v a) :
    ∃ u, s.heap a = some u := by
  obtain ⟨m, ho⟩ := ho
  have := h.holds v
  match hx : T v with
  | none => rw [hx] at this; change s.vars v = none at this; rw [ho] at this; cases this
  | some none =>
    rw [hx] at this
    obtain ⟨m', this⟩ := this
    rw [ho] at this
    simp at this
  | some (some (u, m')) =>
    rw [hx] at this
    obtain ⟨a', h1, h2⟩ := this
    rw [ho] at h1
    simp only [Option.some.injEq, Wr.mk.injEq] at h1
    exact ⟨u, by rw [h1.1]; exact h2⟩

/-- a new object owned by a variable that was not alive -/
theorem Rep.fresh {s : Mach σ M} {T : Var → Option (Option (σ × M))} (h : Rep s T) {v : Var} (hv : s.vars v = none) (u : σ) (m : M) :
    Rep ((s.alloc u).set v (some ⟨some s.next, m⟩)) (put T v (some (some (u, m)))) := by
  have hown : ∀ v' a, Owns ((s.alloc u).set v (some ⟨some s.next, m⟩)) v' a ↔ (v' = v ∧ a = s.next) ∨ (v' ≠ v ∧ Owns s v' a) := by
    intro v' a
    unfold Owns Mach.set Mach.alloc
    dsimp only
    by_cases hx : v' = v
    · subst hx
      rw [put_same]
      constructor
      · rintro ⟨m', h'⟩
        simp only [Option.some.injEq, Wr.mk.injEq] at h'
        exact Or.inl ⟨rfl, h'.1.symm⟩
      · rintro (⟨_, h'⟩ | ⟨h', _⟩)
        · exact ⟨m, by rw [h']⟩
        · exact absurd rfl h'
    · rw [put_ne _ _ hx]
      constructor
      · intro h'; exact Or.inr ⟨hx, h'⟩
      · rintro (⟨h', _⟩ | ⟨_, h'⟩)
        · exact absurd h' hx
        · exact h'
  have hlt : ∀ v' a, Owns s v' a → a < s.next := by
    intro v' a ho
    obtain ⟨u', hu'⟩ := h.alive ho
    exact h.below a u' hu'
  refine ⟨?_, ?_, ?_, ?_⟩
  · intro x
    by_cases hx : x = v
    · subst hx
      rw [put_same]
      exact ⟨s.next, put_same _ _ _, put_same _ _ _⟩
    · rw [put_ne _ _ hx]
      refine holds_congr (h.holds x) (put_ne _ _ hx) ?_
      intro a ho
      exact put_ne _ _ (by have := hlt x a ho; omega)
  · intro x y a hx hy
    rw [hown] at hx hy
    rcases hx with ⟨hx1, hx2⟩ | ⟨hx1, hx2⟩ <;> rcases hy with ⟨hy1, hy2⟩ | ⟨hy1, hy2⟩
    · rw [hx1, hy1]
    · have := hlt _ _ hy2; omega
    · have := hlt _ _ hx2; omega
    · exact h.own x y a hx2 hy2
  · intro a w ha
    by_cases hn : a = s.next
    · exact ⟨v, (hown v a).mpr (Or.inl ⟨rfl, hn⟩)⟩
    · have ha' : s.heap a = some w := (put_ne _ _ hn).symm.trans ha
      obtain ⟨x, hx⟩ := h.owned a w ha'
      refine ⟨x, (hown x a).mpr (Or.inr ⟨?_, hx⟩)⟩
      rintro rfl
      obtain ⟨m', hx⟩ := hx
      rw [hv] at hx
      cases hx
  · intro a w ha
    change a < s.next + 1
    by_cases hn : a = s.next
    · omega
    · have := h.below a w ((put_ne _ _ hn).symm.trans ha)
      omega

/-- what a variable holds decides its entry -/
theorem Holds.dead {s : Mach σ M} {v : Var} (h : Holds s v none) : s.vars v = none := h

/-- the object of a variable is deleted and the variable dies -/
theorem Rep.dropped {s : Mach σ M} {T : Var → Option (Option (σ × M))} (h : Rep s T) {v : Var} {w : Wr M} (hv : s.vars v = some w) :
    ∃ s', s.free w.ptr = .ok s' ∧ Rep (s'.set v none) (put T v none) ∧ s'.vars = s.vars ∧ s'.next = s.next ∧
      ∀ x a, Owns s x a → x ≠ v → s'.heap a = s.heap a := by
  obtain ⟨p, m⟩ := w
  have key : ∀ s' : Mach σ M, s'.vars = s.vars → s'.next = s.next → (∀ x a, Owns s x a → x ≠ v → s'.heap a = s.heap a) →
      (∀ a u, s'.heap a = some u → s.heap a = some u ∧ ¬ Owns s v a) → Rep (s'.set v none) (put T v none) := by
    intro s' e1 e2 e3 e4
    have hown : ∀ x a, Owns (s'.set v none) x a ↔ x ≠ v ∧ Owns s x a := by
      intro x a
      unfold Owns Mach.set
      dsimp only
      rw [e1]
      by_cases hx : x = v
      · subst hx
        rw [put_same]
        simp
      · rw [put_ne _ _ hx]
        exact ⟨fun q => ⟨hx, q⟩, fun q => q.2⟩
    refine ⟨?_, ?_, ?_, ?_⟩
    · intro x
      by_cases hx : x = v
      · subst hx
        rw [put_same]
        exact put_same _ _ _
      · rw [put_ne _ _ hx]
        refine holds_congr (h.holds x) ?_ ?_
        · change put s'.vars v none x = _
          rw [put_ne _ _ hx, e1]
        · intro a ho
          exact e3 x a ho hx
    · intro x y a hx hy
      exact h.own x y a ((hown x a).mp hx).2 ((hown y a).mp hy).2
    · intro a u ha
      obtain ⟨h1, h2⟩ := e4 a u ha
      obtain ⟨x, hx⟩ := h.owned a u h1
      exact ⟨x, (hown x a).mpr ⟨by rintro rfl; exact h2 hx, hx⟩⟩
    · intro a u ha
      change a < s'.next
      rw [e2]
      exact h.below a u (e4 a u ha).1
  match p with
  | none =>
    refine ⟨s, rfl, ?_, rfl, rfl, fun _ _ _ _ => rfl⟩
    refine key s rfl rfl (fun _ _ _ _ => rfl) ?_
    intro a u ha
    refine ⟨ha, ?_⟩
    rintro ⟨m', h'⟩
    rw [hv] at h'
    simp at h'
  | some a =>
    have ho : Owns s v a := ⟨m, hv⟩
    obtain ⟨u, hu⟩ := h.alive ho
    have hf : s.free (some a) = .ok { s with heap := put s.heap a none } := by
      unfold Mach.free
      dsimp only
      rw [hu]
    have hk : ∀ x b, Owns s x b → x ≠ v → put s.heap a none b = s.heap b := by
      intro x b hb hx
      refine put_ne _ _ ?_
      rintro rfl
      exact hx (h.own x v b hb ho)
    refine ⟨_, hf, ?_, rfl, rfl, hk⟩
    refine key _ rfl rfl hk ?_
    intro b w hb
    change put s.heap a none b = some w at hb
    have hne : b ≠ a := by
      rintro rfl
      rw [put_same] at hb
      cases hb
    rw [put_ne _ _ hne] at hb
    refine ⟨hb, ?_⟩
    rintro ⟨m', h'⟩
    rw [hv] at h'
    simp only [Option.some.injEq, Wr.mk.injEq] at h'
    exact hne h'.1.symm

/-- the contents of one variable go to another, that was not alive -/
theorem Rep.moved {s : Mach σ M} {T : Var → Option (Option (σ × M))} (h : Rep s T) {v w : Var} (hvw : v ≠ w) (hv : s.vars v = none)
    {src : Wr M} (hw : s.vars w = some src) (left : M) {x : Option (σ × M)} (hx : T w = some x) :
    Rep ((s.set v (some ⟨src.ptr, src.mem⟩)).set w (some ⟨none, left⟩)) (put (put T v (some x)) w (some none)) := by
  have hown : ∀ y a, Owns ((s.set v (some ⟨src.ptr, src.mem⟩)).set w (some ⟨none, left⟩)) y a ↔
      (y = v ∧ Owns s w a) ∨ (y ≠ v ∧ y ≠ w ∧ Owns s y a) := by
    intro y a
    unfold Owns Mach.set
    dsimp only
    by_cases hy : y = w
    · subst hy
      rw [put_same]
      constructor
      · rintro ⟨m', h'⟩; simp at h'
      · rintro (⟨h', _⟩ | ⟨_, h', _⟩)
        · exact absurd h'.symm hvw
        · exact absurd rfl h'
    · rw [put_ne _ _ hy]
      by_cases hy' : y = v
      · subst hy'
        rw [put_same, hw]
        constructor
        · intro h'; exact Or.inl ⟨rfl, h'⟩
        · rintro (⟨_, h'⟩ | ⟨h', _⟩)
          · exact h'
          · exact absurd rfl h'
      · rw [put_ne _ _ hy']
        constructor
        · intro h'; exact Or.inr ⟨hy', hy, h'⟩
        · rintro (⟨h', _⟩ | ⟨_, _, h'⟩)
          · exact absurd h' hy'
          · exact h'
  refine ⟨?_, ?_, ?_, h.below⟩
  · intro y
    by_cases hy : y = w
    · subst hy
      rw [put_same]
      exact ⟨left, put_same _ _ _⟩
    · rw [put_ne _ _ hy]
      by_cases hy' : y = v
      · subst hy'
        rw [put_same]
        have hxw := h.holds w
        rw [hx] at hxw
        have he : ((s.set y (some ⟨src.ptr, src.mem⟩)).set w (some ⟨none, left⟩)).vars y = s.vars w := by
          change put (put s.vars y _) w _ y = _
          rw [put_ne _ _ hy, put_same, hw]
        match x with
        | none =>
          obtain ⟨m, hm⟩ := hxw
          exact ⟨m, he.trans hm⟩
        | some (u, m) =>
          obtain ⟨a, h1, h2⟩ := hxw
          exact ⟨a, he.trans h1, h2⟩
      · rw [put_ne _ _ hy']
        refine holds_congr (h.holds y) ?_ (fun _ _ => rfl)
        change put (put s.vars v _) w _ y = _
        rw [put_ne _ _ hy, put_ne _ _ hy']
  · intro y z a hy hz
    rw [hown] at hy hz
    rcases hy with ⟨hy1, hy2⟩ | ⟨hy1, hy2, hy3⟩ <;> rcases hz with ⟨hz1, hz2⟩ | ⟨hz1, hz2, hz3⟩
    · rw [hy1, hz1]
    · exact absurd (h.own z w a hz3 hy2) hz2
    · exact absurd (h.own y w a hy3 hz2) hy2
    · exact h.own y z a hy3 hz3
  · intro a u ha
    obtain ⟨y, hy⟩ := h.owned a u ha
    by_cases hyw : y = w
    · exact ⟨v, (hown v a).mpr (Or.inl ⟨rfl, hyw ▸ hy⟩)⟩
    · refine ⟨y, (hown y a).mpr (Or.inr ⟨?_, hyw, hy⟩)⟩
      rintro rfl
      obtain ⟨m', h'⟩ := hy
      rw [hv] at h'
      cases h'

/-- what `T` says of a variable, on the machine -/
theorem Rep.entry {s : Mach σ M} {T : Var → Option (Option (σ × M))} (h : Rep s T) {v : Var} {x : Option (σ × M)} (hx : T v = some x) :
    ∃ w, s.vars v = some w ∧ (∀ u m, x = some (u, m) → s.deref w = .ok u ∧ w.mem = m ∧ ∃ a, w.ptr = some a) ∧
      (x = none → w.ptr = none ∧ s.deref w = .ub) := by
  have hh := h.holds v
  rw [hx] at hh
  match x with
  | none =>
    obtain ⟨m, hm⟩ := hh
    exact ⟨_, hm, (by intro u m h'; cases h'), (fun _ => ⟨rfl, rfl⟩)⟩
  | some (u, m) =>
    obtain ⟨a, h1, h2⟩ := hh
    refine ⟨_, h1, ?_, (by intro h'; cases h')⟩
    intro u' m' h'
    simp only [Option.some.injEq, Prod.mk.injEq] at h'
    refine ⟨?_, h'.2, a, rfl⟩
    unfold Mach.deref
    dsimp only
    rw [h2, h'.1]

theorem Rep.none {s : Mach σ M} {T : Var → Option (Option (σ × M))} (h : Rep s T) {v : Var} (hx : T v = none) : s.vars v = none := by
  have hh := h.holds v
  rw [hx] at hh
  exact hh

theorem look_some {s : Mach σ M} {v : Var} {w : Wr M} (h : s.vars v = some w) : s.look v = .ok w := by
  unfold Mach.look
  rw [h]

theorem look_none {s : Mach σ M} {v : Var} (h : s.vars v = none) : s.look v = .ub := by
  unfold Mach.look
  rw [h]

theorem free_some {s : Mach σ M} {v : Var} {w : Wr M} (h : s.vars v = some w) : s.free? v = .ub := by
  unfold Mach.free?
  rw [h]

theorem free_none {s : Mach σ M} {v : Var} (h : s.vars v = none) : s.free? v = .ok () := by
  unfold Mach.free?
  rw [h]

/-- the outcome of a statement against what is expected of the values -/
def Sim (o : Outcome (Mach σ M × Option Exn)) : Option ((Var → Option (Option (σ × M))) × Option Exn) → Prop
  | .none => o = .ub
  | .some (T', e) => ∃ s', o = .ok (s', e) ∧ Rep s' T'

/-! ## the operations -/

theorem make_sim {s : Mach σ M} {T : Var → Option (Option (σ × M))} (h : Rep s T) (ctor : σ → Except Exn M) (v : Var) (u : σ) :
    Sim (make ctor s v u) (match T v with
      | some _ => .none
      | none => match ctor u with
        | .error e => .some (T, some e)
        | .ok m => .some (put T v (some (some (u, m))), none)) := by
  unfold make
  match hv : T v with
  | some x =>
    obtain ⟨w, hw, _⟩ := h.entry hv
    rw [free_some hw]
    exact rfl
  | none =>
    have hd := h.none hv
    rw [free_none hd]
    match hc : ctor u with
    | .ok m => exact ⟨_, rfl, h.fresh hd u m⟩
    | .error e =>
      have hf : (s.alloc u).free (some s.next) = .ok { s.alloc u with heap := put (s.alloc u).heap s.next none } := by
        unfold Mach.free
        have : (s.alloc u).heap s.next = some u := put_same _ _ _
        dsimp only
        rw [this]
      refine ⟨{ s.alloc u with heap := put (s.alloc u).heap s.next none }, ?_, ?_⟩
      · change Bind.bind ((s.alloc u).free (some s.next)) _ = _
        rw [hf]
        rfl
      · have hh : put (s.alloc u).heap s.next none = s.heap := by
          unfold Mach.alloc
          dsimp only
          rw [put_put]
          refine put_self _ _ _ ?_
          cases hx : s.heap s.next with
          | none => rfl
          | some w => exact absurd (h.below _ _ hx) (by omega)
        refine ⟨?_, h.own, ?_, ?_⟩
        · intro x
          refine holds_congr (h.holds x) rfl ?_
          intro a _
          exact congrFun hh a
        · intro a w ha
          exact h.owned a w ((congrFun hh a).symm.trans ha)
        · intro a w ha
          have := h.below a w ((congrFun hh a).symm.trans ha)
          change a < s.next + 1
          omega

theorem copyCtor_sim {s : Mach σ M} {T : Var → Option (Option (σ × M))} (h : Rep s T) {ops : MemOps M} (hops : Faithful ops)
    (cp : σ → Option Exn) (v w : Var) :
    Sim (copyCtor ops cp s v w) (match T v, T w with
      | none, some (some (u, m)) => match cp u with
        | some e => .some (T, some e)
        | none => .some (put T v (some (some (u, m))), none)
      | _, _ => .none) := by
  unfold copyCtor
  match hv : T v, hw : T w with
  | some x, _ =>
    obtain ⟨w, hw, _⟩ := h.entry hv
    rw [free_some hw]
    exact rfl
  | none, none =>
    rw [free_none (h.none hv), look_none (h.none hw)]
    exact rfl
  | none, some none =>
    obtain ⟨w', hw', _, hn⟩ := h.entry hw
    rw [free_none (h.none hv), look_some hw']
    change Bind.bind (s.deref w') _ = _
    rw [(hn rfl).2]
    rfl
  | none, some (some (u, m)) =>
    obtain ⟨w', hw', hs, _⟩ := h.entry hw
    obtain ⟨h1, h2, _⟩ := hs u m rfl
    rw [free_none (h.none hv), look_some hw']
    change Sim (Bind.bind (s.deref w') _) _
    rw [h1]
    change Sim (match cp u with
      | some e => .ok (s, some e)
      | none => .ok ((s.alloc u).set v (some ⟨some s.next, ops.copy w'.mem⟩), none)) (match cp u with
        | some e => .some (T, some e)
        | none => .some (put T v (some (some (u, m))), none))
    match cp u with
    | some e => exact ⟨s, rfl, h⟩
    | none =>
      rw [hops.copied, h2]
      exact ⟨_, rfl, h.fresh (h.none hv) u m⟩

theorem moveCtor_sim {s : Mach σ M} {T : Var → Option (Option (σ × M))} (h : Rep s T) {ops : MemOps M} (hops : Faithful ops) (v w : Var) :
    Sim (moveCtor ops s v w) (match T v, T w with
      | none, some x => .some (put (put T v (some x)) w (some none), none)
      | _, _ => .none) := by
  unfold moveCtor
  match hv : T v, hw : T w with
  | some x, _ =>
    obtain ⟨w, hw, _⟩ := h.entry hv
    rw [free_some hw]
    exact rfl
  | none, none =>
    rw [free_none (h.none hv), look_none (h.none hw)]
    exact rfl
  | none, some x =>
    obtain ⟨w', hw', _⟩ := h.entry hw
    have hne : v ≠ w := by
      rintro rfl
      rw [hv] at hw
      cases hw
    rw [free_none (h.none hv), look_some hw']
    refine ⟨_, rfl, ?_⟩
    rw [hops.moved]
    exact h.moved hne (h.none hv) hw' _ hw

theorem moveAssign_sim {s : Mach σ M} {T : Var → Option (Option (σ × M))} (h : Rep s T) {ops : MemOps M} (hops : Faithful ops) (v w : Var) :
    Sim (moveAssign ops s v w) (match T v, T w with
      | some _, some x => if v = w then .some (T, none) else .some (put (put T v (some x)) w (some none), none)
      | _, _ => .none) := by
  unfold moveAssign
  match hv : T v, hw : T w with
  | none, _ =>
    rw [look_none (h.none hv)]
    exact rfl
  | some y, none =>
    obtain ⟨v', hv', _⟩ := h.entry hv
    rw [look_some hv', look_none (h.none hw)]
    exact rfl
  | some y, some x =>
    obtain ⟨v', hv', _⟩ := h.entry hv
    obtain ⟨w', hw', _⟩ := h.entry hw
    rw [look_some hv', look_some hw']
    simp only [Outcome.bind_ok]
    by_cases hne : v = w
    · rw [if_pos hne, if_pos hne]
      exact ⟨s, rfl, h⟩
    · rw [if_neg hne, if_neg hne]
      obtain ⟨s', hf, hr, e1, _, _⟩ := h.dropped hv'
      rw [hf]
      simp only [Outcome.bind_ok]
      refine ⟨_, rfl, ?_⟩
      rw [hops.assigned]
      have hww : (s'.set v none).vars w = some w' := by
        change put s'.vars v none w = _
        rw [put_ne _ _ (fun e => hne e.symm), e1, hw']
      have := hr.moved hne (put_same _ _ _) hww (ops.assign v'.mem w'.mem).2 (x := x) (by rw [put_ne _ _ (fun e => hne e.symm), hw])
      rw [put_put] at this
      have he : ((s'.set v none).set v (some ⟨w'.ptr, w'.mem⟩)) = s'.set v (some ⟨w'.ptr, w'.mem⟩) := by
        unfold Mach.set
        dsimp only
        rw [put_put]
      rw [he] at this
      exact this

theorem drop_sim {s : Mach σ M} {T : Var → Option (Option (σ × M))} (h : Rep s T) (v : Var) :
    Sim (drop s v) (match T v with
      | some _ => .some (put T v none, none)
      | none => .none) := by
  unfold drop
  match hv : T v with
  | none =>
    rw [look_none (h.none hv)]
    exact rfl
  | some y =>
    obtain ⟨v', hv', _⟩ := h.entry hv
    obtain ⟨s', hf, hr, _⟩ := h.dropped hv'
    rw [look_some hv']
    change Sim (Bind.bind (s.free v'.ptr) _) _
    rw [hf]
    exact ⟨_, rfl, hr⟩

theorem method_sim {s : Mach σ M} {T : Var → Option (Option (σ × M))} (h : Rep s T) (f : σ → M → (σ × M) × Option Exn) (v : Var) :
    Sim (method f s v) (match T v with
      | some (some (u, m)) => .some (put T v (some (some (f u m).1)), (f u m).2)
      | _ => .none) := by
  unfold method
  match hv : T v with
  | none =>
    rw [look_none (h.none hv)]
    exact rfl
  | some none =>
    obtain ⟨v', hv', _, hn⟩ := h.entry hv
    rw [look_some hv']
    change Bind.bind (s.deref v') _ = _
    rw [(hn rfl).2]
    rfl
  | some (some (u, m)) =>
    obtain ⟨v', hv', hs, _⟩ := h.entry hv
    obtain ⟨h1, h2, a, h3⟩ := hs u m rfl
    rw [look_some hv']
    change Sim (Bind.bind (s.deref v') _) _
    rw [h1, h3]
    simp only [Outcome.bind_ok]
    rw [h2]
    refine ⟨_, rfl, ?_⟩
    have hv'' : s.vars v = some ⟨some a, m⟩ := by
      rw [hv', ← h3, ← h2]
    have ho : Owns s v a := ⟨m, hv''⟩
    have hown : ∀ x b, Owns (({ s with heap := put s.heap a (some (f u m).1.1) } : Mach σ M).set v (some ⟨some a, (f u m).1.2⟩)) x b ↔
        Owns s x b := by
      intro x b
      unfold Owns Mach.set
      dsimp only
      by_cases hx : x = v
      · subst hx
        rw [put_same, hv'']
        constructor
        · rintro ⟨m', h'⟩
          simp only [Option.some.injEq, Wr.mk.injEq] at h'
          exact ⟨m, by rw [h'.1]⟩
        · rintro ⟨m', h'⟩
          simp only [Option.some.injEq, Wr.mk.injEq] at h'
          exact ⟨_, by rw [h'.1]⟩
      · rw [put_ne _ _ hx]
    refine ⟨?_, ?_, ?_, ?_⟩
    · intro x
      by_cases hx : x = v
      · subst hx
        rw [put_same]
        exact ⟨a, put_same _ _ _, put_same _ _ _⟩
      · rw [put_ne _ _ hx]
        refine holds_congr (h.holds x) (put_ne _ _ hx) ?_
        intro b hb
        refine put_ne _ _ ?_
        rintro rfl
        exact hx (h.own x v b hb ho)
    · intro x y b hx hy
      exact h.own x y b ((hown x b).mp hx) ((hown y b).mp hy)
    · intro b w hb
      by_cases hba : b = a
      · exact ⟨v, (hown v b).mpr (hba ▸ ho)⟩
      · obtain ⟨x, hx⟩ := h.owned b w ((put_ne _ _ hba).symm.trans hb)
        exact ⟨x, (hown x b).mpr hx⟩
    · intro b w hb
      by_cases hba : b = a
      · obtain ⟨u', hu'⟩ := h.alive ho
        exact hba ▸ h.below a u' hu'
      · exact h.below b w ((put_ne _ _ hba).symm.trans hb)

/-- what a temporary holds goes to a variable and the temporary dies -/
theorem assign_tmp_sim {s1 : Mach σ M} {T : Var → Option (Option (σ × M))} {ops : MemOps M} (hops : Faithful ops) (ht : T none = none)
    {v : Nat} {y : Option (σ × M)} (hv : T (some v) = some y) {u : σ} {m : M} (hr1 : Rep s1 (put T none (some (some (u, m))))) :
    ∃ s2, moveAssign ops s1 (some v) none = .ok (s2, none) ∧ ∃ s3, drop s2 none = .ok (s3, none) ∧
      Rep s3 (put T (some v) (some (some (u, m)))) := by
  have hm := moveAssign_sim hr1 hops (some v) none
  rw [put_ne _ _ (by simp), hv, put_same] at hm
  dsimp only at hm
  rw [if_neg (by simp)] at hm
  obtain ⟨s2, h2, hr2⟩ := hm
  have hd := drop_sim hr2 none
  rw [put_same] at hd
  obtain ⟨s3, h3, hr3⟩ := hd
  refine ⟨s2, h2, s3, h3, ?_⟩
  rw [put_put, put_comm _ _ _ (by simp : (some v : Var) ≠ none), put_put, put_comm _ _ _ (by simp : (none : Var) ≠ some v),
    put_self _ none none (by rw [put_ne _ _ (by simp)]; exact ht)] at hr3
  exact hr3

theorem makeAssign_sim {s : Mach σ M} {T : Var → Option (Option (σ × M))} (h : Rep s T) (ctor : σ → Except Exn M) {ops : MemOps M}
    (hops : Faithful ops) (ht : T none = none) (v : Nat) (u : σ) :
    Sim (makeAssign ctor ops s (some v) u) (match T (some v) with
      | none => .none
      | some _ => match ctor u with
        | .error e => .some (T, some e)
        | .ok m => .some (put T (some v) (some (some (u, m))), none)) := by
  unfold makeAssign
  match hv : T (some v) with
  | none =>
    rw [look_none (h.none hv)]
    exact rfl
  | some y =>
    obtain ⟨v', hv', _⟩ := h.entry hv
    rw [look_some hv']
    simp only [Outcome.bind_ok]
    have hc := make_sim h ctor none u
    rw [ht] at hc
    dsimp only at hc ⊢
    match hcp : ctor u with
    | .error e =>
      rw [hcp] at hc
      obtain ⟨s1, h1, h2⟩ := hc
      rw [h1]
      exact ⟨s1, rfl, h2⟩
    | .ok m =>
      rw [hcp] at hc
      obtain ⟨s1, h1, hr1⟩ := hc
      rw [h1]
      simp only [Outcome.bind_ok]
      obtain ⟨s2, h2, s3, h3, hr3⟩ := assign_tmp_sim hops ht hv hr1
      rw [h2]
      exact ⟨s3, h3, hr3⟩

theorem copyAssign_sim {s : Mach σ M} {T : Var → Option (Option (σ × M))} (h : Rep s T) {ops : MemOps M} (hops : Faithful ops)
    (cp : σ → Option Exn) (ht : T none = none) (v w : Nat) :
    Sim (copyAssign ops cp s (some v) (some w)) (match T (some v), T (some w) with
      | some _, some (some (u, m)) => match cp u with
        | some e => .some (T, some e)
        | none => .some (put T (some v) (some (some (u, m))), none)
      | _, _ => .none) := by
  unfold copyAssign
  match hv : T (some v) with
  | none =>
    rw [look_none (h.none hv)]
    exact rfl
  | some y =>
    obtain ⟨v', hv', _⟩ := h.entry hv
    rw [look_some hv']
    simp only [Outcome.bind_ok]
    have hc := copyCtor_sim h hops cp none (some w)
    rw [ht] at hc
    match hw : T (some w) with
    | none =>
      rw [hw] at hc
      change copyCtor ops cp s none (some w) = .ub at hc
      rw [hc]
      rfl
    | some none =>
      rw [hw] at hc
      change copyCtor ops cp s none (some w) = .ub at hc
      rw [hc]
      rfl
    | some (some (u, m)) =>
      rw [hw] at hc
      dsimp only at hc ⊢
      match hcp : cp u with
      | some e =>
        rw [hcp] at hc
        obtain ⟨s1, h1, h2⟩ := hc
        rw [h1]
        exact ⟨s1, rfl, h2⟩
      | none =>
        rw [hcp] at hc
        obtain ⟨s1, h1, hr1⟩ := hc
        rw [h1]
        simp only [Outcome.bind_ok]
        obtain ⟨s2, h2, s3, h3, hr3⟩ := assign_tmp_sim hops ht hv hr1
        rw [h2]
        exact ⟨s3, h3, hr3⟩

/-! ## programs -/

/-- the values of the variables of the user, with the temporary dead -/
def lift (S : Store σ M) : Var → Option (Option (σ × M))
  | none => none
  | some v => S v

theorem lift_upd (S : Store σ M) (v : Nat) (x : Option (Option (σ × M))) : lift (upd S v x) = put (lift S) (some v) x := by
  funext y
  match y with
  | none => rw [put_ne _ _ (by simp)]; rfl
  | some y =>
    unfold put
    change (if y = v then x else S y) = _
    by_cases h : y = v
    · rw [if_pos h, if_pos (by rw [h])]
    · rw [if_neg h, if_neg (by simpa using h)]
      rfl

/-- a statement on the machine does what is expected of the values -/
theorem step_sim {s : Mach σ M} {S : Store σ M} (h : Rep s (lift S)) (ctor : σ → Except Exn M) {ops : MemOps M} (hops : Faithful ops)
    (cp : σ → Option Exn) (o : Op σ M) : Sim (step ctor ops cp s o) ((valStep ctor cp S o).map (fun r => (lift r.1, r.2))) := by
  match o with
  | .make v u =>
    have := make_sim h ctor (some v) u
    unfold step valStep
    dsimp only
    change Sim _ (match S v with
      | some _ => .none
      | none => _) at this
    match hv : S v with
    | some x => rw [hv] at this; exact this
    | none =>
      rw [hv] at this
      dsimp only at this ⊢
      match hc : ctor u with
      | .error e => rw [hc] at this; exact this
      | .ok m =>
        rw [hc] at this
        dsimp only at this
        rw [← lift_upd] at this
        exact this
  | .makeAssign v u =>
    have := makeAssign_sim h ctor hops rfl v u
    unfold step valStep
    dsimp only
    change Sim _ (match S v with
      | none => .none
      | some _ => _) at this
    match hv : S v with
    | none => rw [hv] at this; exact this
    | some x =>
      rw [hv] at this
      dsimp only at this ⊢
      match hc : ctor u with
      | .error e => rw [hc] at this; exact this
      | .ok m =>
        rw [hc] at this
        dsimp only at this
        rw [← lift_upd] at this
        exact this
  | .copyCtor v w =>
    have := copyCtor_sim h hops cp (some v) (some w)
    unfold step valStep
    dsimp only
    change Sim _ (match S v, S w with
      | none, some (some (u, m)) => _
      | _, _ => .none) at this
    match hv : S v, hw : S w with
    | some x, _ => rw [hv] at this; exact this
    | none, none => rw [hv, hw] at this; exact this
    | none, some none => rw [hv, hw] at this; exact this
    | none, some (some (u, m)) =>
      rw [hv, hw] at this
      dsimp only at this ⊢
      match hc : cp u with
      | some e => rw [hc] at this; exact this
      | none =>
        rw [hc] at this
        dsimp only at this
        rw [← lift_upd] at this
        exact this
  | .copyAssign v w =>
    have := copyAssign_sim h hops cp rfl v w
    unfold step valStep
    dsimp only
    change Sim _ (match S v, S w with
      | some _, some (some (u, m)) => _
      | _, _ => .none) at this
    match hv : S v, hw : S w with
    | none, _ => rw [hv] at this; exact this
    | some x, none => rw [hv, hw] at this; exact this
    | some x, some none => rw [hv, hw] at this; exact this
    | some x, some (some (u, m)) =>
      rw [hv, hw] at this
      dsimp only at this ⊢
      match hc : cp u with
      | some e => rw [hc] at this; exact this
      | none =>
        rw [hc] at this
        dsimp only at this
        rw [← lift_upd] at this
        exact this
  | .moveCtor v w =>
    have := moveCtor_sim h hops (some v) (some w)
    unfold step valStep
    dsimp only
    change Sim _ (match S v, S w with
      | none, some x => _
      | _, _ => .none) at this
    match hv : S v, hw : S w with
    | some x, _ => rw [hv] at this; exact this
    | none, none => rw [hv, hw] at this; exact this
    | none, some x =>
      rw [hv, hw] at this
      dsimp only at this
      rw [← lift_upd, ← lift_upd] at this
      exact this
  | .moveAssign v w =>
    have := moveAssign_sim h hops (some v) (some w)
    unfold step valStep
    dsimp only
    change Sim _ (match S v, S w with
      | some _, some x => _
      | _, _ => .none) at this
    match hv : S v, hw : S w with
    | none, _ => rw [hv] at this; exact this
    | some y, none => rw [hv, hw] at this; exact this
    | some y, some x =>
      rw [hv, hw] at this
      dsimp only at this ⊢
      by_cases hne : v = w
      · rw [if_pos hne]
        rw [if_pos (by rw [hne])] at this
        exact this
      · rw [if_neg hne]
        rw [if_neg (by simpa using hne), ← lift_upd, ← lift_upd] at this
        exact this
  | .method f v =>
    have := method_sim h f (some v)
    unfold step valStep
    dsimp only
    change Sim _ (match S v with
      | some (some (u, m)) => _
      | _ => .none) at this
    match hv : S v with
    | none => rw [hv] at this; exact this
    | some none => rw [hv] at this; exact this
    | some (some (u, m)) =>
      rw [hv] at this
      dsimp only at this
      rw [← lift_upd] at this
      exact this
  | .drop v =>
    have := drop_sim h (some v)
    unfold step valStep
    dsimp only
    change Sim _ (match S v with
      | some _ => _
      | none => .none) at this
    match hv : S v with
    | none => rw [hv] at this; exact this
    | some y =>
      rw [hv] at this
      dsimp only at this
      rw [← lift_upd] at this
      exact this

theorem exec_sim {s : Mach σ M} {S : Store σ M} (h : Rep s (lift S)) (ctor : σ → Except Exn M) {ops : MemOps M} (hops : Faithful ops)
    (cp : σ → Option Exn) (os : List (Op σ M)) :
    match valExec ctor cp S os with
    | none => exec ctor ops cp s os = .ub
    | some (S', es) => ∃ s', exec ctor ops cp s os = .ok (s', es) ∧ Rep s' (lift S') := by
  induction os generalizing s S with
  | nil => exact ⟨s, rfl, h⟩
  | cons o os ih =>
    have hs := step_sim h ctor hops cp o
    unfold valExec exec
    match hv : valStep ctor cp S o with
    | none =>
      rw [hv] at hs
      change step ctor ops cp s o = .ub at hs
      rw [hs]
      rfl
    | some (S', e) =>
      rw [hv] at hs
      obtain ⟨s', h1, h2⟩ := hs
      rw [h1]
      simp only [Outcome.bind_ok]
      have := ih h2
      match hx : valExec ctor cp S' os with
      | none =>
        rw [hx] at this
        dsimp only at this
        rw [this]
        rfl
      | some (S'', es) =>
        rw [hx] at this
        obtain ⟨s'', h3, h4⟩ := this
        rw [h3]
        exact ⟨s'', rfl, h4⟩

theorem rep_empty : Rep (Mach.empty : Mach σ M) (lift (fun _ => none)) := by
  refine ⟨?_, ?_, ?_, ?_⟩
  · intro v
    match v with
    | none => rfl
    | some v => rfl
  · rintro v v' a ⟨m, h⟩
    cases h
  · intro a u h
    cases h
  · intro a u h
    cases h

theorem Rep.oneOwner {s : Mach σ M} {T : Var → Option (Option (σ × M))} (h : Rep s T) : OneOwner s :=
  ⟨h.own, fun a => ⟨fun ⟨u, hu⟩ => h.owned a u hu, fun ⟨_, hv⟩ => h.alive hv⟩⟩

end Verif.Wrap
