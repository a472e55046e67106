import Verif.Base.Outcome

/-!
# Model of `island::get_population`, `set_population`, `get_algorithm`, `set_algorithm`, src/island.cpp 786-895

An interleaving transition system: any number of threads (the user's and the island's) call the getter and the setter of
one of the two shared pointers of an island (the two pairs of functions have the same code). Objects live on a heap with
reference counts; using an object after its count reached zero is undefined behaviour. The getter copies the object
after releasing the mutex, element by element, so that other threads run in between. Locking, copying a pointer,
incrementing and decrementing a count (atomic in `std::shared_ptr`) and copying one element are separate steps.
Simplification: addresses are not reused. Exceptions (memory, copy constructors of user code) are not modelled.
-/

set_option autoImplicit false

namespace Verif.Snap

open Verif

variable {α : Type}

/-- A call. An object is a list of elements. -/
inductive Cl (α : Type) where
  | get
  | set (v : List α)

/-- Position of a thread. -/
inductive Pc (α : Type) where
  | out
  /-- 804, 867: about to lock -/
  | getLock
  /-- 805, 868: reading the pointer -/
  | getPtr
  /-- 805, 868: incrementing the count of the object pointed to -/
  | getInc (p : Nat)
  /-- 806, 869 -/
  | getUnlock (p : Nat)
  /-- 815, 871: copying, `acc` has been copied -/
  | getCopy (p : Nat) (acc : List α)
  /-- end of scope: the pointer is released -/
  | getDrop (p : Nat) (acc : List α)
  /-- 830, 886: copying the argument into a new object -/
  | setAlloc (v : List α)
  /-- 839, 891 -/
  | setLock (q : Nat) (v : List α)
  /-- 840, 892: reading the pointer -/
  | setPtr (q : Nat) (v : List α)
  /-- 840, 892: incrementing the count -/
  | setInc (q : Nat) (v : List α) (old : Nat)
  /-- 845, 893: the count of the new object is incremented -/
  | setInc2 (q : Nat) (v : List α) (old : Nat)
  /-- 845, 893: the pointer is changed -/
  | setStore (q : Nat) (v : List α) (old : Nat)
  /-- 845, 893: the count of the previous object is decremented -/
  | setDec (q : Nat) (old : Nat)
  /-- 846, 894 -/
  | setUnlock (q : Nat) (old : Nat)
  /-- end of scope: `old_ptr` is released -/
  | setDropOld (q : Nat) (old : Nat)
  /-- end of scope: `new_algo_ptr` is released -/
  | setDropNew (q : Nat)
  /-- a dead object was used -/
  | ub

/-- What can be observed, in order. `stored` is the change of the pointer. -/
inductive Obs (α : Type) where
  | getCall (t : Nat)
  | getRet (t : Nat) (v : List α)
  | setCall (t : Nat) (v : List α)
  | stored (t : Nat) (v : List α)
  | setRet (t : Nat)
  deriving DecidableEq

/-- An object. -/
structure Cell (α : Type) where
  data : List α
  rc : Nat

structure Thread (α : Type) where
  pc : Pc α
  prog : List (Cl α)

structure State (α : Type) where
  /-- `none`: destroyed -/
  heap : List (Option (Cell α))
  /-- the shared pointer in `island_data` -/
  ptr : Nat
  /-- the thread that holds the mutex -/
  owner : Option Nat
  threads : List (Thread α)
  log : List (Obs α)

/-- An island with the object `v`, which only the island refers to. -/
def init (v : List α) (progs : List (List (Cl α))) : State α :=
  { heap := [some ⟨v, 1⟩], ptr := 0, owner := none, threads := progs.map (fun p => ⟨.out, p⟩), log := [] }

/-- The object at address `p`, if alive. -/
def cell (s : State α) (p : Nat) : Option (Cell α) := (s.heap[p]?).join

/-- Thread `t` moves to `pc`. -/
def goto (s : State α) (t : Nat) (th : Thread α) (pc : Pc α) : State α := { s with threads := s.threads.set t { th with pc := pc } }

/-- Incrementing the count of the object at `p`. -/
def inc (s : State α) (p : Nat) : Option (State α) :=
  match cell s p with
  | none => none
  | some c => some { s with heap := s.heap.set p (some { c with rc := c.rc + 1 }) }

/-- Decrementing the count of the object at `p`; the last one destroys it. -/
def dec (s : State α) (p : Nat) : Option (State α) :=
  match cell s p with
  | none => none
  | some c => some { s with heap := s.heap.set p (if c.rc ≤ 1 then none else some { c with rc := c.rc - 1 }) }

/-- Continue, or undefined behaviour. -/
def orUb (s : State α) (t : Nat) (th : Thread α) (o : Option (State α)) (pc : Pc α) : State α :=
  match o with
  | none => goto s t th .ub
  | some s => goto s t th pc

/-- Copying the next element of the object at `p`, or ending the copy. -/
def copyStep (s : State α) (t : Nat) (th : Thread α) (p : Nat) (acc : List α) : State α :=
  match cell s p with
  | none => goto s t th .ub
  | some c =>
    match c.data[acc.length]? with
    | none => goto s t th (.getDrop p acc)
    | some x => goto s t th (.getCopy p (acc ++ [x]))

/-- One step of thread `t`; `none` if it cannot move (blocked on the mutex, or its program is over). -/
def step (s : State α) (t : Nat) : Option (State α) :=
  match s.threads[t]? with
  | none => none
  | some th =>
    match th.pc with
    | .ub => none
    | .out =>
      match th.prog with
      | [] => none
      | .get :: p => some (goto { s with log := s.log ++ [.getCall t] } t { th with prog := p } .getLock)
      | .set v :: p => some (goto { s with log := s.log ++ [.setCall t v] } t { th with prog := p } (.setAlloc v))
    | .getLock => if s.owner = none then some (goto { s with owner := some t } t th .getPtr) else none
    | .getPtr => some (goto s t th (.getInc s.ptr))
    | .getInc p => some (orUb s t th (inc s p) (.getUnlock p))
    | .getUnlock p => some (goto { s with owner := none } t th (.getCopy p []))
    | .getCopy p acc => some (copyStep s t th p acc)
    | .getDrop p acc => some (orUb s t th (dec { s with log := s.log ++ [.getRet t acc] } p) .out)
    | .setAlloc v => some (goto { s with heap := s.heap ++ [some ⟨v, 1⟩] } t th (.setLock s.heap.length v))
    | .setLock q v => if s.owner = none then some (goto { s with owner := some t } t th (.setPtr q v)) else none
    | .setPtr q v => some (goto s t th (.setInc q v s.ptr))
    | .setInc q v old => some (orUb s t th (inc s old) (.setInc2 q v old))
    | .setInc2 q v old => some (orUb s t th (inc s q) (.setStore q v old))
    | .setStore q v old => some (goto { s with ptr := q, log := s.log ++ [.stored t v] } t th (.setDec q old))
    | .setDec q old => some (orUb s t th (dec s old) (.setUnlock q old))
    | .setUnlock q old => some (goto { s with owner := none } t th (.setDropOld q old))
    | .setDropOld q old => some (orUb s t th (dec s old) (.setDropNew q))
    | .setDropNew q => some (orUb s t th (dec { s with log := s.log ++ [.setRet t] } q) .out)

/-- An execution. -/
def run (s : State α) : List Nat → Option (State α)
  | [] => some s
  | t :: ts =>
    match step s t with
    | none => none
    | some s => run s ts

end Verif.Snap
