import Verif.Model.ForkIsland
import Mathlib.Data.List.Basic

/-!
# C45: what comes out of a fork island
-/

set_option autoImplicit false

namespace Verif.Props

open Verif Fork

variable {B W A P : Type}

/-- What is asked of serialisation: reading what was written gives the message back, and incomplete data is rejected. -/
structure CodecOk (c : Codec B W A P) : Prop where
  back : ∀ m l, c.ser m = .ok l → c.deser l = .ok m
  short : ∀ m l k, c.ser m = .ok l → k < l.length → ∃ e, c.deser (l.take k) = .error e
  empty : ∃ e, c.deser [] = .error e

/-- The message to be sent comes from `evolve`, or says that something failed. -/
def MsgFrom (v : Env B W A P) (a : A) (p : P) (m : Msg W A P) : Prop :=
  (m.flag = false ∧ v.evolve a p = .ok (m.algo, m.pop)) ∨ m.flag = true

/-- What the child did so far. -/
def ChildOk (v : Env B W A P) (a : A) (p : P) (w : List B) (want : Option (Msg W A P × List B)) : Child B W A P → Prop
  | .unborn | .run => w = [] ∧ want = none
  | .ser m last => w = [] ∧ want = none ∧ MsgFrom v a p m ∧ (last = true → m.flag = true)
  | .send rest eof => ∃ m l, want = some (m, l) ∧ v.codec.ser m = .ok l ∧ MsgFrom v a p m ∧ w ++ rest = l ∧ (eof = true → rest = [])
  | .closeW | .exited (some 0) => ∃ m l, want = some (m, l) ∧ v.codec.ser m = .ok l ∧ MsgFrom v a p m ∧ w = l
  | .exited _ => (w = [] ∧ want = none) ∨
      ∃ m l rest, want = some (m, l) ∧ v.codec.ser m = .ok l ∧ MsgFrom v a p m ∧ w ++ rest = l

/-- The message `m` is what the child sent, and the child sent all of it. -/
def Got (v : Env B W A P) (a : A) (p : P) (s : State B W A P) (m : Msg W A P) : Prop :=
  MsgFrom v a p m ∧ ∃ l, s.want = some (m, l) ∧ s.written = l

/-- Where the parent is, and what the island holds. -/
def ParentOk (v : Env B W A P) (a : A) (p : P) (s : State B W A P) : Parent B W A P → Prop
  | .start => s.child = .unborn ∧ s.pipe = [] ∧ s.parentW = true ∧ s.algo = a ∧ s.pop = p ∧ s.pid = false ∧ s.reaped = false
  | .closeW => s.child ≠ .unborn ∧ s.pipe = s.written ∧ s.parentW = true ∧ s.algo = a ∧ s.pop = p ∧ s.pid = true
  | .read acc => s.child ≠ .unborn ∧ acc ++ s.pipe = s.written ∧ s.parentW = false ∧ s.algo = a ∧ s.pop = p ∧ s.pid = true
  | .deser acc => (∃ c, s.child = .exited c) ∧ acc = s.written ∧ s.algo = a ∧ s.pop = p ∧ s.pid = true
  | .closeR m | .wait m => (∃ c, s.child = .exited c) ∧ Got v a p s m ∧ s.algo = a ∧ s.pop = p ∧ s.pid = true
  | .kill e | .reap e => s.child ≠ .unborn ∧ s.algo = a ∧ s.pop = p ∧ s.pid = true ∧ ∀ w, e ≠ .child w
  | .check m => (∃ c, s.child = .exited c) ∧ s.reaped = true ∧ Got v a p s m ∧ s.algo = a ∧ s.pop = p ∧ s.pid = true
  | .setAlgo m => (∃ c, s.child = .exited c) ∧ s.reaped = true ∧ Got v a p s m ∧ m.flag = false ∧ s.algo = a ∧ s.pop = p ∧ s.pid = true
  | .setPop m => (∃ c, s.child = .exited c) ∧ s.reaped = true ∧ Got v a p s m ∧ m.flag = false ∧ s.algo = m.algo ∧ s.pop = p ∧ s.pid = true
  | .done none => (∃ c, s.child = .exited c) ∧ s.reaped = true ∧ v.evolve a p = .ok (s.algo, s.pop) ∧ s.pid = false
  | .done (some e) => s.algo = a ∧ s.pop = p ∧ s.pid = false ∧ (s.reaped = true ∧ (∃ c, s.child = .exited c) ∨ e = .wait ∨ e = .fork ∧ s.child = .unborn) ∧
      (∀ w, e = .child w → ∃ m, Got v a p s m ∧ m.flag = true ∧ m.what = w)

structure ForkInv (v : Env B W A P) (a : A) (p : P) (s : State B W A P) : Prop where
  child : ChildOk v a p s.written s.want s.child
  parent : ParentOk v a p s s.parent

/-- A child that did not exit is still to come: the parent is before its `waitpid`, or gave up on it. -/
theorem childOk_island {v : Env B W A P} {a : A} {p : P} {s : State B W A P} (hi : ForkInv v a p s) (h : ∀ c, s.child ≠ .exited c) (hu : s.child ≠ .unborn) :
    s.algo = a ∧ s.pop = p := by
  have := hi.parent
  cases hp : s.parent with
  | done e =>
    rw [hp] at this
    cases e with
    | none => obtain ⟨⟨c, hc⟩, -⟩ := this; exact absurd hc (h c)
    | some e => exact ⟨this.1, this.2.1⟩
  | start => rw [hp] at this; exact absurd this.1 hu
  | setPop m => rw [hp] at this; obtain ⟨⟨c, hc⟩, -⟩ := this; exact absurd hc (h c)
  | _ => rw [hp] at this; simp only [ParentOk] at this; tauto

/-- A step of a child that did not exit does not disturb what is known about the parent. -/
theorem parentOk_child {v : Env B W A P} {a : A} {p : P} {s s' : State B W A P} (hi : ForkInv v a p s) (h : ∀ c, s.child ≠ .exited c)
    (hu : s.child ≠ .unborn) (hu' : s'.child ≠ .unborn) (h1 : s'.algo = s.algo) (h2 : s'.pop = s.pop) (h3 : s'.parent = s.parent) (h4 : s'.parentW = s.parentW)
    (h5 : s'.pid = s.pid) (h7 : ∃ x, s'.pipe = s.pipe ++ x ∧ s'.written = s.written ++ x) :
    ParentOk v a p s' s'.parent := by
  obtain ⟨x, hx1, hx2⟩ := h7
  have hP := hi.parent
  rw [h3]
  cases hp : s.parent with
  | start => rw [hp] at hP; exact absurd hP.1 hu
  | closeW =>
    rw [hp] at hP
    obtain ⟨b1, b2, b3, b4, b5, b6⟩ := hP
    exact ⟨hu', by rw [hx1, hx2, b2], by rw [h4, b3], by rw [h1, b4], by rw [h2, b5], by rw [h5, b6]⟩
  | read acc =>
    rw [hp] at hP
    obtain ⟨b1, b2, b3, b4, b5, b6⟩ := hP
    exact ⟨hu', by rw [hx1, hx2, ← b2, List.append_assoc], by rw [h4, b3], by rw [h1, b4], by rw [h2, b5], by rw [h5, b6]⟩
  | kill e => rw [hp] at hP; exact ⟨hu', by rw [h1, hP.2.1], by rw [h2, hP.2.2.1], by rw [h5, hP.2.2.2.1], hP.2.2.2.2⟩
  | reap e => rw [hp] at hP; exact ⟨hu', by rw [h1, hP.2.1], by rw [h2, hP.2.2.1], by rw [h5, hP.2.2.2.1], hP.2.2.2.2⟩
  | done e =>
    rw [hp] at hP
    cases e with
    | none => obtain ⟨⟨c, hc⟩, -⟩ := hP; exact absurd hc (h c)
    | some e =>
      obtain ⟨b1, b2, b3, b4, b5⟩ := hP
      have he : e = .wait := by
        rcases b4 with ⟨-, c, hc⟩ | h | ⟨-, h⟩
        · exact absurd hc (h c)
        · exact h
        · exact absurd h hu
      exact ⟨by rw [h1, b1], by rw [h2, b2], by rw [h5, b3], Or.inr (Or.inl he), by rw [he]; intro w hw; cases hw⟩
  | deser acc => rw [hp] at hP; obtain ⟨⟨c, hc⟩, -⟩ := hP; exact absurd hc (h c)
  | closeR m => rw [hp] at hP; obtain ⟨⟨c, hc⟩, -⟩ := hP; exact absurd hc (h c)
  | wait m => rw [hp] at hP; obtain ⟨⟨c, hc⟩, -⟩ := hP; exact absurd hc (h c)
  | check m => rw [hp] at hP; obtain ⟨⟨c, hc⟩, -⟩ := hP; exact absurd hc (h c)
  | setAlgo m => rw [hp] at hP; obtain ⟨⟨c, hc⟩, -⟩ := hP; exact absurd hc (h c)
  | setPop m => rw [hp] at hP; obtain ⟨⟨c, hc⟩, -⟩ := hP; exact absurd hc (h c)

theorem errMsg_from (v : Env B W A P) (a : A) (p : P) (w : Option W) : MsgFrom v a p (errMsg v w) := Or.inr rfl

theorem fork_child {v : Env B W A P} {a : A} {p : P} {s s' : State B W A P} (hi : ForkInv v a p s) {fail : Option (Option W)}
    (h : childStep v s fail = some s') : ForkInv v a p s' := by
  have hC := hi.child
  unfold childStep at h
  cases hc : s.child with
  | unborn => rw [hc] at h; cases h
  | exited c => rw [hc] at h; cases h
  | run =>
    rw [hc] at h hC
    obtain ⟨w1, w2⟩ := hC
    obtain ⟨i1, i2⟩ := childOk_island hi (by rw [hc]; intro c h; cases h) (by rw [hc]; intro h; cases h)
    cases fail with
    | some w =>
      simp only [Option.some.injEq] at h; subst h
      exact ⟨⟨w1, w2, errMsg_from .., fun _ => rfl⟩, parentOk_child hi (by rw [hc]; intro c h; cases h) (by rw [hc]; intro h; cases h) (by intro h; cases h) rfl rfl rfl rfl rfl ⟨[], by simp⟩⟩
    | none =>
      simp only at h
      rw [show v.evolve s.algo s.pop = v.evolve a p by rw [i1, i2]] at h
      cases he : v.evolve a p with
      | ok r =>
        rw [he] at h
        simp only [Option.some.injEq] at h; subst h
        exact ⟨⟨w1, w2, Or.inl ⟨rfl, he⟩, fun h => by cases h⟩, parentOk_child hi (by rw [hc]; intro c h; cases h) (by rw [hc]; intro h; cases h) (by intro h; cases h) rfl rfl rfl rfl rfl ⟨[], by simp⟩⟩
      | error w =>
        rw [he] at h
        simp only [Option.some.injEq] at h; subst h
        exact ⟨⟨w1, w2, errMsg_from .., fun _ => rfl⟩, parentOk_child hi (by rw [hc]; intro c h; cases h) (by rw [hc]; intro h; cases h) (by intro h; cases h) rfl rfl rfl rfl rfl ⟨[], by simp⟩⟩
  | ser m last =>
    rw [hc] at h hC
    obtain ⟨w1, w2, w3, w4⟩ := hC
    have bad : ∀ w, ForkInv v a p { s with child := if last then .exited (some 1) else .ser (errMsg v w) true } := by
      intro w
      refine ⟨?_, parentOk_child hi (by rw [hc]; intro c h; cases h) (by rw [hc]; intro h; cases h) (by simp only; split <;> (intro h; cases h)) rfl rfl rfl rfl rfl ⟨[], by simp⟩⟩
      simp only
      split
      · exact Or.inl ⟨w1, w2⟩
      · exact ⟨w1, w2, errMsg_from .., fun _ => rfl⟩
    cases fail with
    | some w => simp only [Option.some.injEq] at h; subst h; exact bad w
    | none =>
      simp only at h
      cases he : v.codec.ser m with
      | ok l =>
        rw [he] at h
        simp only [Option.some.injEq] at h; subst h
        exact ⟨⟨m, l, rfl, he, w3, by simp [w1], fun h => by cases h⟩, parentOk_child hi (by rw [hc]; intro c h; cases h) (by rw [hc]; intro h; cases h) (by intro h; cases h) rfl rfl rfl rfl rfl ⟨[], by simp⟩⟩
      | error w => rw [he] at h; simp only [Option.some.injEq] at h; subst h; exact bad w
  | send rest eof =>
    rw [hc] at h hC
    obtain ⟨m, l, w1, w2, w3, w4, w5⟩ := hC
    cases fail with
    | some w =>
      have h : some { s with child := .exited (some 1) } = some s' := by cases eof <;> exact h
      cases h
      exact ⟨Or.inr ⟨m, l, rest, w1, w2, w3, w4⟩, parentOk_child hi (by rw [hc]; intro c h; cases h) (by rw [hc]; intro h; cases h) (by intro h; cases h) rfl rfl rfl rfl rfl ⟨[], by simp⟩⟩
    | none =>
      cases eof with
      | true =>
        simp only [Option.some.injEq] at h; subst h
        have := w5 rfl
        subst this
        exact ⟨⟨m, l, w1, w2, w3, by simpa using w4⟩, parentOk_child hi (by rw [hc]; intro c h; cases h) (by rw [hc]; intro h; cases h) (by intro h; cases h) rfl rfl rfl rfl rfl ⟨[], by simp⟩⟩
      | false =>
        simp only at h
        split at h
        · cases h
          refine ⟨⟨m, l, w1, w2, w3, by simp only [List.append_assoc, List.take_append_drop]; exact w4, fun h => ?_⟩, parentOk_child hi (by rw [hc]; intro c h; cases h) (by rw [hc]; intro h; cases h) (by intro h; cases h) rfl rfl rfl rfl rfl ⟨rest.take bufSize, rfl, rfl⟩⟩
          rw [List.drop_eq_nil_iff]
          have := of_decide_eq_true h
          omega
        · cases h
  | closeW =>
    rw [hc] at h hC
    obtain ⟨m, l, w1, w2, w3, w4⟩ := hC
    cases fail with
    | none =>
      simp only [Option.some.injEq] at h; subst h
      exact ⟨⟨m, l, w1, w2, w3, w4⟩, parentOk_child hi (by rw [hc]; intro c h; cases h) (by rw [hc]; intro h; cases h) (by intro h; cases h) rfl rfl rfl rfl rfl ⟨[], by simp⟩⟩
    | some w =>
      simp only [Option.some.injEq] at h; subst h
      exact ⟨Or.inr ⟨m, l, [], w1, w2, w3, by simpa using w4⟩, parentOk_child hi (by rw [hc]; intro c h; cases h) (by rw [hc]; intro h; cases h) (by intro h; cases h) rfl rfl rfl rfl rfl ⟨[], by simp⟩⟩

theorem childOk_die {v : Env B W A P} {a : A} {p : P} {w : List B} {want : Option (Msg W A P × List B)} {c : Child B W A P} (h : ChildOk v a p w want c)
    (k : Option Nat) (hk : k ≠ some 0) : ChildOk v a p w want (.exited k) := by
  have goal : (w = [] ∧ want = none) ∨ ∃ m l rest, want = some (m, l) ∧ v.codec.ser m = .ok l ∧ MsgFrom v a p m ∧ w ++ rest = l := by
    cases c with
    | unborn => exact Or.inl h
    | run => exact Or.inl h
    | ser m last => exact Or.inl ⟨h.1, h.2.1⟩
    | send rest eof => obtain ⟨m, l, h1, h2, h3, h4, -⟩ := h; exact Or.inr ⟨m, l, rest, h1, h2, h3, h4⟩
    | closeW => obtain ⟨m, l, h1, h2, h3, h4⟩ := h; exact Or.inr ⟨m, l, [], h1, h2, h3, by simpa using h4⟩
    | exited c =>
      match c, h with
      | some 0, h => obtain ⟨m, l, h1, h2, h3, h4⟩ := h; exact Or.inr ⟨m, l, [], h1, h2, h3, by simpa using h4⟩
      | none, h => exact h
      | some (n + 1), h => exact h
  match k, hk with
  | none, _ => exact goal
  | some (n + 1), _ => exact goal
  | some 0, hk => exact absurd rfl hk

/-- What the child wrote is the beginning of a message. -/
theorem written_prefix {v : Env B W A P} {a : A} {p : P} {s : State B W A P} (hi : ForkInv v a p s) {c : Option Nat} (hc : s.child = .exited c) :
    (s.written = [] ∧ s.want = none) ∨ ∃ m l rest, s.want = some (m, l) ∧ v.codec.ser m = .ok l ∧ MsgFrom v a p m ∧ s.written ++ rest = l := by
  have h := hi.child
  rw [hc] at h
  have := childOk_die h none (by simp)
  exact this

theorem fork_parent {v : Env B W A P} {a : A} {p : P} {s s' : State B W A P} (hv : CodecOk v.codec) (hi : ForkInv v a p s) {ok : Bool} {n : Nat}
    (h : parentStep v s ok n = some s') : ForkInv v a p s' := by
  have hP := hi.parent
  unfold parentStep at h
  cases hp : s.parent with
  | start =>
    rw [hp] at h hP
    obtain ⟨b1, b2, b3, b4, b5, b6, b7⟩ := hP
    have hC := hi.child
    rw [b1] at hC
    simp only at h
    split at h
    · cases h
      have e : s.pipe = s.written := by rw [b2, hC.1]
      exact ⟨hC, ⟨nofun, e, b3, b4, b5, rfl⟩⟩
    · cases h
      exact ⟨hi.child, b4, b5, b6, Or.inr (Or.inr ⟨rfl, b1⟩), fun w h => by cases h⟩
  | closeW =>
    rw [hp] at h hP
    obtain ⟨b1, b2, b3, b4, b5, b6⟩ := hP
    simp only at h
    split at h
    · cases h; exact ⟨hi.child, b1, b2, rfl, b4, b5, b6⟩
    · cases h; exact ⟨hi.child, ⟨b1, b4, b5, b6, nofun⟩⟩
  | read acc =>
    rw [hp] at h hP
    obtain ⟨b1, b2, b3, b4, b5, b6⟩ := hP
    simp only at h
    split at h
    · cases h; exact ⟨hi.child, ⟨b1, b4, b5, b6, nofun⟩⟩
    · cases hpipe : s.pipe with
      | nil =>
        rw [hpipe] at h
        simp only at h
        split at h
        · rename_i hcond
          cases h
          refine ⟨hi.child, ?_, by rw [hpipe] at b2; simpa using b2, b4, b5, b6⟩
          simp only [Bool.and_eq_true, Bool.not_eq_true', childW] at hcond
          obtain ⟨⟨-, h2⟩, -⟩ := hcond
          simp only
          cases hc : s.child with
          | exited c => exact ⟨c, rfl⟩
          | unborn => exact absurd hc b1
          | _ => rw [hc] at h2; cases h2
        · cases h
      | cons x xs =>
        rw [hpipe] at h b2
        simp only at h
        split at h
        · cases h
          exact ⟨hi.child, b1, by simp only [List.append_assoc, List.take_append_drop]; exact b2, b3, b4, b5, b6⟩
        · cases h
  | deser acc =>
    rw [hp] at h hP
    obtain ⟨⟨c, hc⟩, b2, b4, b5, b6⟩ := hP
    simp only at h
    cases hd : v.codec.deser acc with
    | error e =>
      rw [hd] at h; cases h
      have hu : s.child ≠ .unborn := by rw [hc]; nofun
      exact ⟨hi.child, ⟨hu, b4, b5, b6, nofun⟩⟩
    | ok m =>
      rw [hd] at h; cases h
      refine ⟨hi.child, ⟨c, hc⟩, ?_, b4, b5, b6⟩
      rcases written_prefix hi hc with ⟨h1, -⟩ | ⟨m', l, rest, h1, h2, h3, h4⟩
      · obtain ⟨e, he⟩ := hv.empty
        rw [b2, h1, he] at hd; cases hd
      · cases rest with
        | nil =>
          rw [List.append_nil] at h4
          have := hv.back m' l h2
          rw [b2, h4, this] at hd
          cases hd
          exact ⟨h3, l, h1, h4⟩
        | cons x xs =>
          obtain ⟨e, he⟩ := hv.short m' l s.written.length h2 (by rw [← h4]; simp)
          rw [← h4, List.take_left] at he
          rw [b2, he] at hd; cases hd
  | closeR m =>
    rw [hp] at h hP
    obtain ⟨⟨c, hc⟩, b2, b4, b5, b6⟩ := hP
    simp only at h
    split at h
    · cases h; exact ⟨hi.child, ⟨c, hc⟩, b2, b4, b5, b6⟩
    · cases h
      have hu : s.child ≠ .unborn := by rw [hc]; nofun
      exact ⟨hi.child, ⟨hu, b4, b5, b6, nofun⟩⟩
  | kill e =>
    rw [hp] at h hP
    cases h; exact ⟨hi.child, hP⟩
  | reap e =>
    rw [hp] at h hP
    obtain ⟨b1, b4, b5, b6, b7⟩ := hP
    simp only at h
    cases hc : s.child with
    | exited c =>
      rw [hc] at h
      cases h
      refine ⟨by simp only; rw [← hc]; exact hi.child, b4, b5, rfl, Or.inl ⟨rfl, c, rfl⟩, fun w hw => absurd hw (b7 w)⟩
    | _ => rw [hc] at h; cases h
  | wait m =>
    rw [hp] at h hP
    obtain ⟨⟨c, hc⟩, b2, b4, b5, b6⟩ := hP
    simp only at h
    split at h
    · split at h
      · cases h; exact ⟨hi.child, ⟨c, hc⟩, rfl, b2, b4, b5, b6⟩
      · cases h
    · cases h; exact ⟨hi.child, b4, b5, rfl, Or.inr (Or.inl rfl), fun w h => by cases h⟩
  | check m =>
    rw [hp] at h hP
    obtain ⟨⟨c, hc⟩, b1, b2, b4, b5, b6⟩ := hP
    simp only at h
    split at h
    · rename_i hf
      cases h
      exact ⟨hi.child, b4, b5, rfl, Or.inl ⟨b1, c, hc⟩, fun w h => ⟨m, b2, hf, by cases h; rfl⟩⟩
    · rename_i hf
      cases h
      exact ⟨hi.child, ⟨c, hc⟩, b1, b2, by simpa using hf, b4, b5, b6⟩
  | setAlgo m =>
    rw [hp] at h hP
    obtain ⟨⟨c, hc⟩, b1, b2, b3, b4, b5, b6⟩ := hP
    cases h
    exact ⟨hi.child, ⟨c, hc⟩, b1, b2, b3, rfl, b5, b6⟩
  | setPop m =>
    rw [hp] at h hP
    obtain ⟨⟨c, hc⟩, b1, b2, b3, b4, b5, b6⟩ := hP
    cases h
    refine ⟨hi.child, ⟨c, hc⟩, b1, ?_, rfl⟩
    simp only
    rcases b2.1 with ⟨-, h⟩ | h
    · rw [b4]; exact h
    · rw [h] at b3; cases b3
  | done e => rw [hp] at h; cases h

theorem fork_next {v : Env B W A P} {a : A} {p : P} {s s' : State B W A P} (hv : CodecOk v.codec) (hi : ForkInv v a p s) {e : Fork.Ev W}
    (h : Fork.next v s e = some s') : ForkInv v a p s' := by
  cases e with
  | parent ok n => exact fork_parent hv hi h
  | child fail => exact fork_child hi h
  | die =>
    simp only [Fork.next] at h
    have go : (∀ c, s.child ≠ .exited c) → s.child ≠ .unborn → ForkInv v a p { s with child := .exited none } := fun h1 h2 =>
      ⟨childOk_die hi.child none (by simp), parentOk_child hi h1 h2 nofun rfl rfl rfl rfl rfl ⟨[], by simp⟩⟩
    cases hc : s.child with
    | unborn => rw [hc] at h; cases h
    | exited c => rw [hc] at h; cases h
    | run => rw [hc] at h; cases h; exact go (by rw [hc]; nofun) (by rw [hc]; nofun)
    | ser m l => rw [hc] at h; cases h; exact go (by rw [hc]; nofun) (by rw [hc]; nofun)
    | send r f => rw [hc] at h; cases h; exact go (by rw [hc]; nofun) (by rw [hc]; nofun)
    | closeW => rw [hc] at h; cases h; exact go (by rw [hc]; nofun) (by rw [hc]; nofun)
  | inherit =>
    simp only [Fork.next] at h
    split at h
    · cases h; exact ⟨hi.child, hi.parent⟩
    · cases h
  | release =>
    simp only [Fork.next] at h
    split at h
    · cases h; exact ⟨hi.child, hi.parent⟩
    · cases h

theorem fork_init (v : Env B W A P) (a : A) (p : P) : ForkInv v a p (Fork.init a p) :=
  ⟨⟨rfl, rfl⟩, ⟨rfl, rfl, rfl, rfl, rfl, rfl, rfl⟩⟩

theorem fork_run {v : Env B W A P} {a : A} {p : P} (hv : CodecOk v.codec) (es : List (Fork.Ev W)) {s s' : State B W A P} (hi : ForkInv v a p s)
    (h : Fork.run v s es = some s') : ForkInv v a p s' := by
  induction es generalizing s with
  | nil => simp only [Fork.run, Option.some.injEq] at h; subst h; exact hi
  | cons e es ih =>
    simp only [Fork.run] at h
    split at h
    · cases h
    · rename_i s1 h1; exact ih (fork_next hv hi h1) h

/-! ## Theorems -/

/-- **C45.** However the reads are split, the bytes the parent deserialises are exactly the bytes the child wrote, and
they are a whole message if the child ended normally; the child is gone by then. -/
theorem C45_bytes {v : Env B W A P} (hv : CodecOk v.codec) (a : A) (p : P) {es : List (Fork.Ev W)} {s : State B W A P}
    (h : Fork.run v (Fork.init a p) es = some s) (acc : List B) (hs : s.parent = .deser acc) :
    acc = s.written ∧ ∃ c, s.child = .exited c ∧
      (c = some 0 → ∃ m l, s.want = some (m, l) ∧ v.codec.ser m = .ok l ∧ acc = l) := by
  have hi := fork_run hv es (fork_init v a p) h
  have hP := hi.parent
  rw [hs] at hP
  obtain ⟨⟨c, hc⟩, b2, -⟩ := hP
  refine ⟨b2, c, hc, ?_⟩
  rintro rfl
  have hC := hi.child
  rw [hc] at hC
  obtain ⟨m, l, h1, h2, -, h4⟩ := hC
  exact ⟨m, l, h1, h2, by rw [b2, h4]⟩

/-- **C45.** If `run_evolve` returns, the island holds what `evolve` returned in the child. -/
theorem C45_success {v : Env B W A P} (hv : CodecOk v.codec) (a : A) (p : P) {es : List (Fork.Ev W)} {s : State B W A P}
    (h : Fork.run v (Fork.init a p) es = some s) (hs : s.parent = .done none) : v.evolve a p = .ok (s.algo, s.pop) := by
  have hP := (fork_run hv es (fork_init v a p) h).parent
  rw [hs] at hP
  exact hP.2.2.1

/-- **C45.** If `run_evolve` throws, the island is unchanged; and an error attributed to the child was sent by it. -/
theorem C45_failure {v : Env B W A P} (hv : CodecOk v.codec) (a : A) (p : P) {es : List (Fork.Ev W)} {s : State B W A P}
    (h : Fork.run v (Fork.init a p) es = some s) (e : Err W) (hs : s.parent = .done (some e)) :
    s.algo = a ∧ s.pop = p ∧ ∀ w, e = .child w → ∃ m l, s.want = some (m, l) ∧ s.written = l ∧ m.flag = true ∧ m.what = w := by
  have hP := (fork_run hv es (fork_init v a p) h).parent
  rw [hs] at hP
  obtain ⟨b1, b2, -, -, b5⟩ := hP
  refine ⟨b1, b2, fun w hw => ?_⟩
  obtain ⟨m, ⟨-, l, h1, h2⟩, h3, h4⟩ := b5 w hw
  exact ⟨m, l, h1, h2, h3, h4⟩

/-- **C45.** Up to the moment the island is changed, it holds what it held. -/
theorem C45_island {v : Env B W A P} (hv : CodecOk v.codec) (a : A) (p : P) {es : List (Fork.Ev W)} {s : State B W A P}
    (h : Fork.run v (Fork.init a p) es = some s) (hs : s.parent ≠ .done none) (hs' : ∀ m, s.parent ≠ .setPop m) : s.algo = a ∧ s.pop = p := by
  have hP := (fork_run hv es (fork_init v a p) h).parent
  cases hp : s.parent with
  | done e =>
    rw [hp] at hP
    cases e with
    | none => exact absurd hp hs
    | some e => exact ⟨hP.1, hP.2.1⟩
  | setPop m => exact absurd hp (hs' m)
  | _ => rw [hp] at hP; simp only [ParentOk] at hP; tauto

/-- **C45.** No process is left behind: when `run_evolve` is over, the child was waited for and `m_pid` is reset, unless
`fork` or `waitpid` failed. -/
theorem C45_reaped {v : Env B W A P} (hv : CodecOk v.codec) (a : A) (p : P) {es : List (Fork.Ev W)} {s : State B W A P}
    (h : Fork.run v (Fork.init a p) es = some s) (r : Option (Err W)) (hs : s.parent = .done r) :
    s.pid = false ∧ (r ≠ some .fork → r ≠ some .wait → s.reaped = true ∧ ∃ c, s.child = .exited c) := by
  have hP := (fork_run hv es (fork_init v a p) h).parent
  rw [hs] at hP
  cases r with
  | none => exact ⟨hP.2.2.2, fun _ _ => ⟨hP.2.1, hP.1⟩⟩
  | some e =>
    obtain ⟨b1, b2, b3, b4, b5⟩ := hP
    refine ⟨b3, fun h1 h2 => ?_⟩
    rcases b4 with h | h | ⟨h, -⟩
    · exact h
    · exact absurd (by rw [h]) h2
    · exact absurd (by rw [h]) h1

/-- The events in which nothing fails: the system calls succeed and nobody kills the child. -/
def calmFork : Fork.Ev W → Bool
  | .parent true _ | .child none | .inherit | .release => true
  | _ => false

/-- The message to be expected when nothing fails: the result of `evolve`, or the error of `evolve` or of the
serialisation of its result. -/
def forkTarget (v : Env B W A P) (a : A) (p : P) : Msg W A P :=
  match v.evolve a p with
  | .error w => ⟨true, w.getD v.noWhat, v.defAlgo, v.defPop⟩
  | .ok r => match v.codec.ser ⟨false, v.noWhat, r.1, r.2⟩ with
    | .ok _ => ⟨false, v.noWhat, r.1, r.2⟩
    | .error w => ⟨true, w.getD v.noWhat, v.defAlgo, v.defPop⟩

structure CalmInv (v : Env B W A P) (a : A) (p : P) (s : State B W A P) : Prop where
  inv : ForkInv v a p s
  first : ∀ m, s.child = .ser m false → ∃ r, v.evolve a p = .ok r ∧ m = ⟨false, v.noWhat, r.1, r.2⟩
  last : ∀ m, s.child = .ser m true → m = forkTarget v a p
  want : ∀ m l, s.want = some (m, l) → m = forkTarget v a p
  exit : ∀ c, s.child = .exited c → c = some 0
  kill : ∀ e, s.parent ≠ .kill e ∧ s.parent ≠ .reap e
  done : ∀ e, s.parent = .done (some e) → ∃ w, e = .child w

theorem calm_next {v : Env B W A P} {a : A} {p : P} {s s' : State B W A P} (hv : CodecOk v.codec) {l0 : List B} (hl : v.codec.ser (forkTarget v a p) = .ok l0)
    (hi : CalmInv v a p s) {e : Fork.Ev W} (hc : calmFork e = true) (h : Fork.next v s e = some s') : CalmInv v a p s' := by
  have hinv := fork_next hv hi.inv h
  cases e with
  | die => cases hc
  | inherit =>
    simp only [Fork.next] at h
    split at h
    · cases h; exact ⟨hinv, hi.first, hi.last, hi.want, hi.exit, hi.kill, hi.done⟩
    · cases h
  | release =>
    simp only [Fork.next] at h
    split at h
    · cases h; exact ⟨hinv, hi.first, hi.last, hi.want, hi.exit, hi.kill, hi.done⟩
    · cases h
  | child fail =>
    cases fail with
    | some w => cases hc
    | none =>
      simp only [Fork.next] at h
      unfold childStep at h
      cases hch : s.child with
      | unborn => rw [hch] at h; cases h
      | exited c => rw [hch] at h; cases h
      | run =>
        rw [hch] at h
        obtain ⟨i1, i2⟩ := childOk_island hi.inv (by rw [hch]; nofun) (by rw [hch]; nofun)
        simp only at h
        rw [show v.evolve s.algo s.pop = v.evolve a p by rw [i1, i2]] at h
        cases he : v.evolve a p with
        | ok r =>
          rw [he] at h
          cases h
          exact ⟨hinv, fun m hm => by cases hm; exact ⟨r, he, rfl⟩, nofun, hi.want, nofun, hi.kill, hi.done⟩
        | error w =>
          rw [he] at h
          cases h
          exact ⟨hinv, nofun, fun m hm => by cases hm; simp only [forkTarget, he, errMsg], hi.want, nofun, hi.kill, hi.done⟩
      | ser m last =>
        rw [hch] at h
        simp only at h
        cases hs : v.codec.ser m with
        | ok l =>
          rw [hs] at h
          cases h
          refine ⟨hinv, nofun, nofun, fun m' l' hm => ?_, nofun, hi.kill, hi.done⟩
          cases hm
          cases last with
          | true => exact hi.last m hch
          | false =>
            obtain ⟨r, h1, rfl⟩ := hi.first m hch
            simp only [forkTarget, h1, hs]
        | error w =>
          rw [hs] at h
          cases h
          cases last with
          | true => rw [hi.last m hch, hl] at hs; cases hs
          | false =>
            obtain ⟨r, h1, rfl⟩ := hi.first m hch
            exact ⟨hinv, nofun, fun m hm => by cases hm; simp only [forkTarget, h1, hs, errMsg], hi.want, nofun, hi.kill, hi.done⟩
      | send rest eof =>
        rw [hch] at h
        cases eof with
        | true => cases h; exact ⟨hinv, nofun, nofun, hi.want, nofun, hi.kill, hi.done⟩
        | false =>
          simp only at h
          split at h
          · cases h; exact ⟨hinv, nofun, nofun, hi.want, nofun, hi.kill, hi.done⟩
          · cases h
      | closeW =>
        rw [hch] at h
        cases h
        exact ⟨hinv, nofun, nofun, hi.want, fun c hc => by cases hc; rfl, hi.kill, hi.done⟩
  | parent ok n =>
    cases ok with
    | false => cases hc
    | true =>
      simp only [Fork.next] at h
      unfold parentStep at h
      cases hp : s.parent with
      | start => rw [hp] at h; cases h; exact ⟨hinv, nofun, nofun, hi.want, nofun, fun e => ⟨nofun, nofun⟩, nofun⟩
      | closeW => rw [hp] at h; cases h; exact ⟨hinv, hi.first, hi.last, hi.want, hi.exit, fun e => ⟨nofun, nofun⟩, nofun⟩
      | read acc =>
        rw [hp] at h
        simp only [Bool.not_true, Bool.false_eq_true, if_false] at h
        cases hpipe : s.pipe with
        | nil =>
          rw [hpipe] at h
          simp only at h
          split at h
          · cases h; exact ⟨hinv, hi.first, hi.last, hi.want, hi.exit, fun e => ⟨nofun, nofun⟩, nofun⟩
          · cases h
        | cons x xs =>
          rw [hpipe] at h
          simp only at h
          split at h
          · cases h; exact ⟨hinv, hi.first, hi.last, hi.want, hi.exit, fun e => ⟨nofun, nofun⟩, nofun⟩
          · cases h
      | deser acc =>
        rw [hp] at h
        simp only at h
        cases hd : v.codec.deser acc with
        | ok m => rw [hd] at h; cases h; exact ⟨hinv, hi.first, hi.last, hi.want, hi.exit, fun e => ⟨nofun, nofun⟩, nofun⟩
        | error e =>
          exfalso
          have hP := hi.inv.parent
          rw [hp] at hP
          obtain ⟨⟨c, hc'⟩, b2, -⟩ := hP
          have hC := hi.inv.child
          rw [hc', hi.exit c hc'] at hC
          obtain ⟨m, l, h1, h2, -, h4⟩ := hC
          rw [b2, h4, hv.back m l h2] at hd
          cases hd
      | closeR m => rw [hp] at h; cases h; exact ⟨hinv, hi.first, hi.last, hi.want, hi.exit, fun e => ⟨nofun, nofun⟩, nofun⟩
      | kill e => exact absurd hp (hi.kill e).1
      | reap e => exact absurd hp (hi.kill e).2
      | wait m =>
        rw [hp] at h
        simp only [if_true] at h
        split at h
        · cases h; exact ⟨hinv, hi.first, hi.last, hi.want, hi.exit, fun e => ⟨nofun, nofun⟩, nofun⟩
        · cases h
      | check m =>
        rw [hp] at h
        simp only at h
        split at h
        · cases h; exact ⟨hinv, hi.first, hi.last, hi.want, hi.exit, fun e => ⟨nofun, nofun⟩, fun e he => by cases he; exact ⟨_, rfl⟩⟩
        · cases h; exact ⟨hinv, hi.first, hi.last, hi.want, hi.exit, fun e => ⟨nofun, nofun⟩, nofun⟩
      | setAlgo m => rw [hp] at h; cases h; exact ⟨hinv, hi.first, hi.last, hi.want, hi.exit, fun e => ⟨nofun, nofun⟩, nofun⟩
      | setPop m => rw [hp] at h; cases h; exact ⟨hinv, hi.first, hi.last, hi.want, hi.exit, fun e => ⟨nofun, nofun⟩, nofun⟩
      | done e => rw [hp] at h; cases h

/-- **C45.** If nothing fails, `run_evolve` returns exactly if `evolve` returned in the child (and its result could be
serialised); otherwise it throws, with the message of the exception thrown in the child. -/
theorem C45_faithful {v : Env B W A P} (hv : CodecOk v.codec) (a : A) (p : P) {es : List (Fork.Ev W)} {s : State B W A P}
    (h : Fork.run v (Fork.init a p) es = some s) (hcalm : ∀ e ∈ es, calmFork e = true) (r : Option (Err W)) (hs : s.parent = .done r)
    {l0 : List B} (hl : v.codec.ser (forkTarget v a p) = .ok l0) :
    (∀ x l, v.evolve a p = .ok x → v.codec.ser ⟨false, v.noWhat, x.1, x.2⟩ = .ok l → r = none ∧ s.algo = x.1 ∧ s.pop = x.2) ∧
    (∀ w, v.evolve a p = .error w → r = some (.child (w.getD v.noWhat)) ∧ s.algo = a ∧ s.pop = p) := by
  have key : ∀ (es : List (Fork.Ev W)) (s s' : State B W A P), CalmInv v a p s → (∀ e ∈ es, calmFork e = true) → Fork.run v s es = some s' → CalmInv v a p s' := by
    intro es
    induction es with
    | nil => intro s s' hi _ h; simp only [Fork.run, Option.some.injEq] at h; subst h; exact hi
    | cons e es ih =>
      intro s s' hi hc h
      simp only [Fork.run] at h
      split at h
      · cases h
      · rename_i s1 h1
        exact ih s1 s' (calm_next hv hl hi (hc e (List.mem_cons_self ..)) h1) (fun e he => hc e (List.mem_cons_of_mem _ he)) h
  have hi := key es _ s ⟨fork_init v a p, nofun, nofun, nofun, nofun, fun e => ⟨nofun, nofun⟩, nofun⟩ hcalm h
  have hP := hi.inv.parent
  rw [hs] at hP
  constructor
  · intro x l hx hxl
    cases r with
    | none =>
      have := hP.2.2.1
      rw [hx] at this
      cases this
      exact ⟨rfl, rfl, rfl⟩
    | some e =>
      exfalso
      obtain ⟨w, rfl⟩ := hi.done e hs
      obtain ⟨m, ⟨-, l, h1, -⟩, h2, -⟩ := hP.2.2.2.2 w rfl
      have := hi.want m l h1
      simp only [forkTarget, hx, hxl] at this
      rw [this] at h2; cases h2
  · intro w hw
    cases r with
    | none => have := hP.2.2.1; rw [hw] at this; cases this
    | some e =>
      obtain ⟨w', rfl⟩ := hi.done e hs
      obtain ⟨m, ⟨-, l, h1, -⟩, h2, h3⟩ := hP.2.2.2.2 w' rfl
      have := hi.want m l h1
      simp only [forkTarget, hw] at this
      rw [this] at h3
      exact ⟨by rw [← h3], hP.1, hP.2.1⟩

/-- **C45.** No deadlock: while `run_evolve` is not over, something can happen without a failure (the child being killed
counts only after the parent asked for it). The pipe must have room for one buffer. -/
theorem C45_progress {v : Env B W A P} (hv : CodecOk v.codec) (a : A) (p : P) {es : List (Fork.Ev W)} {s : State B W A P}
    (h : Fork.run v (Fork.init a p) es = some s) (hcap : 100 ≤ v.cap) (hs : ∀ r, s.parent ≠ .done r) :
    (∃ n, (Fork.next v s (.parent true n)).isSome) ∨ (Fork.next v s (.child none)).isSome ∨ (0 < s.others ∧ (Fork.next v s .release).isSome) ∨
    ((∃ e, s.parent = .reap e) ∧ (Fork.next v s .die).isSome) := by
  have hi := fork_run hv es (fork_init v a p) h
  have hP := hi.parent
  cases hp : s.parent with
  | done r => exact absurd hp (hs r)
  | start => left; exact ⟨0, by simp [Fork.next, parentStep, hp]⟩
  | closeW => left; exact ⟨0, by simp [Fork.next, parentStep, hp]⟩
  | deser acc => left; refine ⟨0, ?_⟩; simp only [Fork.next, parentStep, hp]; split <;> rfl
  | closeR m => left; exact ⟨0, by simp [Fork.next, parentStep, hp]⟩
  | kill e => left; exact ⟨0, by simp [Fork.next, parentStep, hp]⟩
  | check m => left; refine ⟨0, ?_⟩; simp only [Fork.next, parentStep, hp]; split <;> rfl
  | setAlgo m => left; exact ⟨0, by simp [Fork.next, parentStep, hp]⟩
  | setPop m => left; exact ⟨0, by simp [Fork.next, parentStep, hp]⟩
  | wait m =>
    rw [hp] at hP
    obtain ⟨⟨c, hc⟩, -⟩ := hP
    left; exact ⟨0, by simp [Fork.next, parentStep, hp, hc]⟩
  | reap e =>
    rw [hp] at hP
    cases hc : s.child with
    | exited c => left; exact ⟨0, by simp [Fork.next, parentStep, hp, hc]⟩
    | unborn => exact absurd hc hP.1
    | _ => right; right; right; exact ⟨⟨e, rfl⟩, by simp [Fork.next, hc]⟩
  | read acc =>
    rw [hp] at hP
    obtain ⟨b1, b2, b3, -⟩ := hP
    cases hpipe : s.pipe with
    | cons x xs =>
      left; refine ⟨1, ?_⟩
      simp [Fork.next, parentStep, hp, hpipe, bufSize]
    | nil =>
      cases hc : s.child with
      | unborn => exact absurd hc b1
      | exited c =>
        by_cases ho : s.others = 0
        · left; refine ⟨0, ?_⟩
          simp [Fork.next, parentStep, hp, hpipe, hc, childW, b3, ho]
        · right; right; left
          have : 0 < s.others := by omega
          exact ⟨this, by simp [Fork.next, this]⟩
      | run => right; left; simp only [Fork.next, childStep, hc]; split <;> rfl
      | ser m last => right; left; simp only [Fork.next, childStep, hc]; split <;> rfl
      | closeW => right; left; simp [Fork.next, childStep, hc]
      | send rest eof =>
        right; left
        cases eof with
        | true => simp [Fork.next, childStep, hc]
        | false =>
          simp only [Fork.next, childStep, hc]
          rw [if_pos]
          · rfl
          · rw [hpipe, List.length_take]; simp only [List.length_nil, bufSize]; omega

def childRank : Child B W A P → Nat
  | .unborn => 6
  | .run => 5
  | .ser _ false => 4
  | .ser _ true => 3
  | .send _ _ => 2
  | .closeW => 1
  | .exited _ => 0

def sendRank : Child B W A P → Nat
  | .send rest eof => rest.length + if eof then 0 else 1
  | _ => 0

def parentRank : Parent B W A P → Nat
  | .start => 9
  | .closeW => 8
  | .read _ => 7
  | .deser _ => 6
  | .closeR _ => 5
  | .wait _ => 4
  | .check _ => 3
  | .kill _ | .setAlgo _ => 2
  | .reap _ | .setPop _ => 1
  | .done _ => 0

def forkMeasure (s : State B W A P) : Nat × Nat × Nat × Nat × Nat :=
  (childRank s.child, sendRank s.child, s.pipe.length, parentRank s.parent, s.others)

theorem forkMeasure_lt {v : Env B W A P} {s s' : State B W A P} {e : Fork.Ev W} (he : e ≠ .inherit) (h : Fork.next v s e = some s')
    (hst : s.parent = .start → s.child = .unborn) : WellFoundedRelation.rel (forkMeasure s') (forkMeasure s) := by
  have c1 : childRank s'.child < childRank s.child → WellFoundedRelation.rel (forkMeasure s') (forkMeasure s) := fun h => Prod.Lex.left _ _ h
  have c2 : childRank s'.child = childRank s.child → sendRank s'.child < sendRank s.child → WellFoundedRelation.rel (forkMeasure s') (forkMeasure s) := by
    intro e1 h; unfold forkMeasure; rw [e1]; exact Prod.Lex.right _ (Prod.Lex.left _ _ h)
  have c3 : s'.child = s.child → s'.pipe.length < s.pipe.length → WellFoundedRelation.rel (forkMeasure s') (forkMeasure s) := by
    intro e1 h; unfold forkMeasure; rw [e1]; exact Prod.Lex.right _ (Prod.Lex.right _ (Prod.Lex.left _ _ h))
  have c4 : s'.child = s.child → s'.pipe = s.pipe → parentRank s'.parent < parentRank s.parent → WellFoundedRelation.rel (forkMeasure s') (forkMeasure s) := by
    intro e1 e2 h; unfold forkMeasure; rw [e1, e2]; exact Prod.Lex.right _ (Prod.Lex.right _ (Prod.Lex.right _ (Prod.Lex.left _ _ h)))
  have c5 : s'.child = s.child → s'.pipe = s.pipe → s'.parent = s.parent → s'.others < s.others → WellFoundedRelation.rel (forkMeasure s') (forkMeasure s) := by
    intro e1 e2 e3 h; unfold forkMeasure; rw [e1, e2, e3]; exact Prod.Lex.right _ (Prod.Lex.right _ (Prod.Lex.right _ (Prod.Lex.right _ h)))
  cases e with
  | inherit => exact absurd rfl he
  | release =>
    simp only [Fork.next] at h
    split at h
    · cases h; refine c5 rfl rfl rfl ?_; simp only; omega
    · cases h
  | die =>
    simp only [Fork.next] at h
    cases hc : s.child with
    | unborn => rw [hc] at h; cases h
    | exited c => rw [hc] at h; cases h
    | run => rw [hc] at h; cases h; exact c1 (by rw [hc]; simp [childRank])
    | ser m l => rw [hc] at h; cases h; exact c1 (by rw [hc]; cases l <;> simp [childRank])
    | send r f => rw [hc] at h; cases h; exact c1 (by rw [hc]; simp [childRank])
    | closeW => rw [hc] at h; cases h; exact c1 (by rw [hc]; simp [childRank])
  | child fail =>
    simp only [Fork.next] at h
    unfold childStep at h
    cases hc : s.child with
    | unborn => rw [hc] at h; cases h
    | exited c => rw [hc] at h; cases h
    | run =>
      rw [hc] at h
      cases fail with
      | some w => cases h; exact c1 (by rw [hc]; simp [childRank])
      | none =>
        simp only at h
        split at h
        · cases h; exact c1 (by rw [hc]; simp [childRank])
        · cases h; exact c1 (by rw [hc]; simp [childRank])
    | ser m last =>
      rw [hc] at h
      cases fail with
      | some w => cases h; exact c1 (by rw [hc]; cases last <;> simp [childRank])
      | none =>
        simp only at h
        split at h
        · cases h; exact c1 (by rw [hc]; cases last <;> simp [childRank])
        · cases h; exact c1 (by rw [hc]; cases last <;> simp [childRank])
    | send rest eof =>
      rw [hc] at h
      cases fail with
      | some w =>
        have h : some { s with child := .exited (some 1) } = some s' := by cases eof <;> exact h
        cases h; exact c1 (by rw [hc]; simp [childRank])
      | none =>
        cases eof with
        | true => cases h; exact c1 (by rw [hc]; simp [childRank])
        | false =>
          simp only at h
          split at h
          · cases h
            refine c2 (by rw [hc]; rfl) ?_
            rw [hc]
            simp only [sendRank, List.length_drop, bufSize]
            by_cases hr : rest.length < 100
            · simp [hr]; omega
            · simp [hr]; omega
          · cases h
    | closeW =>
      rw [hc] at h
      cases fail with
      | none => cases h; exact c1 (by rw [hc]; simp [childRank])
      | some w => cases h; exact c1 (by rw [hc]; simp [childRank])
  | parent ok n =>
    simp only [Fork.next] at h
    unfold parentStep at h
    cases hp : s.parent with
    | start =>
      rw [hp] at h
      simp only at h
      split at h
      · cases h
        exact c1 (by rw [hst hp]; simp [childRank])
      · cases h; exact c4 rfl rfl (by rw [hp]; simp [parentRank])
    | closeW =>
      rw [hp] at h
      simp only at h
      split at h
      · cases h; exact c4 rfl rfl (by rw [hp]; simp [parentRank])
      · cases h; exact c4 rfl rfl (by rw [hp]; simp [parentRank])
    | read acc =>
      rw [hp] at h
      simp only at h
      split at h
      · cases h; exact c4 rfl rfl (by rw [hp]; simp [parentRank])
      · cases hpipe : s.pipe with
        | nil =>
          rw [hpipe] at h
          simp only at h
          split at h
          · cases h; exact c4 rfl hpipe.symm (by rw [hp]; simp [parentRank])
          · cases h
        | cons x xs =>
          rw [hpipe] at h
          simp only at h
          split at h
          · cases h
            refine c3 rfl ?_
            rw [hpipe]
            simp only [List.length_drop, List.length_cons]
            omega
          · cases h
    | deser acc =>
      rw [hp] at h
      simp only at h
      split at h
      · cases h; exact c4 rfl rfl (by rw [hp]; simp [parentRank])
      · cases h; exact c4 rfl rfl (by rw [hp]; simp [parentRank])
    | closeR m =>
      rw [hp] at h
      simp only at h
      split at h
      · cases h; exact c4 rfl rfl (by rw [hp]; simp [parentRank])
      · cases h; exact c4 rfl rfl (by rw [hp]; simp [parentRank])
    | kill e => rw [hp] at h; cases h; exact c4 rfl rfl (by rw [hp]; simp [parentRank])
    | reap e =>
      rw [hp] at h
      simp only at h
      split at h
      · cases h; exact c4 rfl rfl (by rw [hp]; simp [parentRank])
      · cases h
    | wait m =>
      rw [hp] at h
      simp only at h
      split at h
      · split at h
        · cases h; exact c4 rfl rfl (by rw [hp]; simp [parentRank])
        · cases h
      · cases h; exact c4 rfl rfl (by rw [hp]; simp [parentRank])
    | check m =>
      rw [hp] at h
      simp only at h
      split at h
      · cases h; exact c4 rfl rfl (by rw [hp]; simp [parentRank])
      · cases h; exact c4 rfl rfl (by rw [hp]; simp [parentRank])
    | setAlgo m => rw [hp] at h; cases h; exact c4 rfl rfl (by rw [hp]; simp [parentRank])
    | setPop m => rw [hp] at h; cases h; exact c4 rfl rfl (by rw [hp]; simp [parentRank])
    | done e => rw [hp] at h; cases h

/-- **C45.** `run_evolve` comes to an end: there is no infinite run, unless other processes inherit the write end of the
pipe without end. -/
theorem C45_terminates {v : Env B W A P} (hv : CodecOk v.codec) (a : A) (p : P) (st : Nat → State B W A P) (ev : Nat → Fork.Ev W)
    (h0 : st 0 = Fork.init a p) (hstep : ∀ k, Fork.next v (st k) (ev k) = some (st (k + 1))) : ∀ k, ∃ j, k ≤ j ∧ ev j = .inherit := by
  have hinv : ∀ k, ForkInv v a p (st k) := by
    intro k
    induction k with
    | zero => rw [h0]; exact fork_init v a p
    | succ k ih => exact fork_next hv ih (hstep k)
  intro k
  by_contra hno
  have hno : ∀ j, k ≤ j → ev j ≠ .inherit := fun j hj he => hno ⟨j, hj, he⟩
  have key : ∀ (x : Nat × Nat × Nat × Nat × Nat) (j : Nat), k ≤ j → forkMeasure (st j) = x → False := by
    intro x
    induction x using WellFounded.induction (WellFoundedRelation.wf (α := Nat × Nat × Nat × Nat × Nat)) with
    | _ x ih =>
      intro j hj hx
      refine ih (forkMeasure (st (j + 1))) ?_ (j + 1) (by omega) rfl
      rw [← hx]
      refine forkMeasure_lt (hno j hj) (hstep j) (fun hs => ?_)
      have := (hinv j).parent
      rw [hs] at this
      exact this.1
  exact key _ k (Nat.le_refl k) rfl

/-! ## A serialisation that meets the conditions, and runs -/

/-- Header with the length of the population, then the population. -/
def forkCodec : Codec Nat Nat Nat (List Nat) where
  ser m := .ok ([if m.flag then 1 else 0, m.what, m.algo, m.pop.length] ++ m.pop)
  deser l := match l with
    | f :: w :: a :: n :: p => if p.length < n then .error .runtimeError else .ok ⟨f == 1, w, a, p.take n⟩
    | _ => .error .runtimeError

theorem forkCodec_ok : CodecOk forkCodec where
  back := by
    intro m l h
    simp only [forkCodec, Except.ok.injEq] at h ⊢
    subst h
    obtain ⟨f, w, a, p⟩ := m
    cases f <;> simp
  short := by
    intro m l k h hk
    simp only [forkCodec, Except.ok.injEq] at h
    subst h
    simp only [List.length_append, List.length_cons, List.length_nil] at hk
    match k with
    | 0 => exact ⟨_, rfl⟩
    | 1 => exact ⟨_, rfl⟩
    | 2 => exact ⟨_, rfl⟩
    | 3 => exact ⟨_, rfl⟩
    | k + 4 =>
      refine ⟨.runtimeError, ?_⟩
      simp only [forkCodec, List.cons_append, List.take_succ_cons, List.nil_append, List.length_take]
      rw [if_pos (by omega)]
  empty := ⟨_, rfl⟩

/-- `evolve` makes a population of 150 ones (two buffers), or fails if the population is empty. -/
def forkEnv : Env Nat Nat Nat (List Nat) :=
  ⟨forkCodec, fun a p => match p with | [] => .error (some 77) | x :: _ => .ok (a + 1, List.replicate 150 x), 0, 0, [], 120⟩

/-- Reads of different sizes in between. -/
def forkDemo : List (Fork.Ev Nat) :=
  [.parent true 0, .child none, .parent true 0, .child none, .inherit, .child none, .parent true 60, .parent true 17, .child none, .parent true 76,
   .child none, .parent true 1, .child none, .release, .parent true 0, .parent true 0, .parent true 0, .parent true 0, .parent true 0, .parent true 0, .parent true 0]

example : (Fork.run forkEnv (Fork.init 4 [9]) forkDemo).map (fun s => (s.parent, s.algo, s.pop)) =
    some (.done none, 5, List.replicate 150 9) := by decide +kernel

/-- A failing `evolve`: the parent throws with the message. -/
example : (Fork.run forkEnv (Fork.init 4 [])
    [.parent true 0, .parent true 0, .child none, .child none, .child none, .parent true 4, .child none, .child none, .parent true 0, .parent true 0,
     .parent true 0, .parent true 0, .parent true 0]).map (fun s => (s.parent, s.algo, s.pop)) =
    some (.done (some (.child 77)), 4, []) := by decide +kernel

/-- A child killed halfway: the archive throws in the parent. -/
example : (Fork.run forkEnv (Fork.init 4 [9])
    [.parent true 0, .parent true 0, .child none, .child none, .child none, .parent true 100, .die, .parent true 0, .parent true 0, .parent true 0,
     .parent true 0]).map (fun s => (s.parent, s.algo, s.pop)) =
    some (.done (some (.archive .runtimeError)), 4, [9]) := by decide +kernel

end Verif.Props
