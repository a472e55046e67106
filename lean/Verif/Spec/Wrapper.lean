import Verif.Model.Wrapper

/-!
# Value semantics, without a heap

What a user expects of a variable of type `problem`, `algorithm`, …: it holds a value of its own. No addresses here.
-/

set_option autoImplicit false

namespace Verif.Spec.Value

open Verif

variable {σ M : Type}

/-- the variables: not alive, moved from, or the object and the cached members -/
abbrev Store (σ M : Type) := Nat → Option (Option (σ × M))

/-- the store with one variable changed -/
def upd (S : Store σ M) (v : Nat) (x : Option (Option (σ × M))) : Store σ M := fun y => if y = v then x else S y

/-- what a statement does to the values: `none` if it is not allowed (a variable declared twice, a dead variable, an object wanted of a
variable that was moved from), else the values after it and the exception thrown. -/
def valStep (ctor : σ → Except Exn M) (cp : σ → Option Exn) (S : Store σ M) : Wrap.Op σ M → Option (Store σ M × Option Exn)
  | .make v u =>
    match S v with
    | some _ => none
    | none =>
      match ctor u with
      | .error e => some (S, some e)
      | .ok m => some (upd S v (some (some (u, m))), none)
  | .makeAssign v u =>
    match S v with
    | none => none
    | some _ =>
      match ctor u with
      | .error e => some (S, some e)
      | .ok m => some (upd S v (some (some (u, m))), none)
  | .copyCtor v w =>
    match S v, S w with
    | none, some (some (u, m)) =>
      match cp u with
      | some e => some (S, some e)
      | none => some (upd S v (some (some (u, m))), none)
    | _, _ => none
  | .copyAssign v w =>
    match S v, S w with
    | some _, some (some (u, m)) =>
      match cp u with
      | some e => some (S, some e)
      | none => some (upd S v (some (some (u, m))), none)
    | _, _ => none
  | .moveCtor v w =>
    match S v, S w with
    | none, some x => some (upd (upd S v (some x)) w (some none), none)
    | _, _ => none
  | .moveAssign v w =>
    match S v, S w with
    | some _, some x => if v = w then some (S, none) else some (upd (upd S v (some x)) w (some none), none)
    | _, _ => none
  | .method f v =>
    match S v with
    | some (some (u, m)) => some (upd S v (some (some (f u m).1)), (f u m).2)
    | _ => none
  | .drop v =>
    match S v with
    | some _ => some (upd S v none, none)
    | none => none

/-- a program on values -/
def valExec (ctor : σ → Except Exn M) (cp : σ → Option Exn) : Store σ M → List (Wrap.Op σ M) → Option (Store σ M × List (Option Exn))
  | S, [] => some (S, [])
  | S, o :: os =>
    match valStep ctor cp S o with
    | none => none
    | some (S', e) =>
      match valExec ctor cp S' os with
      | none => none
      | some (S'', es) => some (S'', e :: es)

/-- what a variable of the machine holds -/
def Holds (s : Wrap.Mach σ M) (v : Wrap.Var) : Option (Option (σ × M)) → Prop
  | none => s.vars v = none
  | some none => ∃ m, s.vars v = some ⟨none, m⟩
  | some (some (u, m)) => ∃ a, s.vars v = some ⟨some a, m⟩ ∧ s.heap a = some u

/-- the address held by a variable -/
def Owns (s : Wrap.Mach σ M) (v : Wrap.Var) (a : Nat) : Prop := ∃ m, s.vars v = some ⟨some a, m⟩

/-- every object on the heap has exactly one owner -/
def OneOwner (s : Wrap.Mach σ M) : Prop :=
  (∀ v v' a, Owns s v a → Owns s v' a → v = v') ∧ ∀ a, (∃ u, s.heap a = some u) ↔ ∃ v, Owns s v a

/-- copies, moves and assignments of the members give the members of the source -/
structure Faithful (ops : Wrap.MemOps M) : Prop where
  copied : ∀ m, ops.copy m = m
  moved : ∀ m, (ops.move m).1 = m
  assigned : ∀ t m, (ops.assign t m).1 = m

end Verif.Spec.Value
