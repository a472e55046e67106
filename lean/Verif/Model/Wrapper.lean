import Verif.Base.Outcome

/-!
# Model of the type-erased wrappers: `problem`, `algorithm`, `bfe`, `topology`, `r_policy`, `s_policy`

A wrapper owns a user-defined object on the heap through `m_ptr` (a `std::unique_ptr`) and caches what it asked the object at construction
in other members. Here: the operations of these classes on a heap, with addresses, so that sharing, a double `delete`, a leak and the use
of a moved-from wrapper can be told. The user-defined object is any value; `clone()` gives an equal one or throws.

Simplified: an address is not used again after its object was deleted; the allocation itself does not fail (a failure to copy covers
`std::bad_alloc` thrown by `clone()`). What `std::move` leaves in strings and vectors is unspecified: any value.
-/

set_option autoImplicit false

namespace Verif.Wrap

open Verif

/-- what copying, moving and move-assigning the members other than `m_ptr` gives: the new members, and what is left in the source -/
structure MemOps (M : Type) where
  copy : M → M
  move : M → M × M
  assign : M → M → M × M

/-- a wrapper: the address held by `m_ptr`, null after a move, and the other members -/
structure Wr (M : Type) where
  ptr : Option Nat
  mem : M

/-- the variables of a program: those of the user, and `none`, the temporary of the copy assignment -/
abbrev Var := Option Nat

/-- heap and variables that are alive -/
structure Mach (σ M : Type) where
  heap : Nat → Option σ
  next : Nat
  vars : Var → Option (Wr M)

/-- a table with one entry changed -/
def put {α β : Type} [DecidableEq α] (f : α → β) (a : α) (b : β) : α → β := fun x => if x = a then b else f x

variable {σ M : Type}

/-- `new` -/
def Mach.alloc (s : Mach σ M) (u : σ) : Mach σ M := { s with heap := put s.heap s.next (some u), next := s.next + 1 }

/-- `delete`, of a null pointer too -/
def Mach.free (s : Mach σ M) : Option Nat → Outcome (Mach σ M)
  | none => .ok s
  | some a =>
    match s.heap a with
    | none => .ub
    | some _ => .ok { s with heap := put s.heap a none }

/-- the object behind `ptr()`, algorithm.hpp 735-746; null is undefined behaviour -/
def Mach.deref (s : Mach σ M) (w : Wr M) : Outcome σ :=
  match w.ptr with
  | none => .ub
  | some a =>
    match s.heap a with
    | none => .ub
    | some u => .ok u

/-- a variable that is alive -/
def Mach.look (s : Mach σ M) (v : Var) : Outcome (Wr M) :=
  match s.vars v with
  | none => .ub
  | some w => .ok w

/-- a variable that is declared now -/
def Mach.free? (s : Mach σ M) (v : Var) : Outcome Unit :=
  match s.vars v with
  | none => .ok ()
  | some _ => .ub

/-- a variable gets a value or dies -/
def Mach.set (s : Mach σ M) (v : Var) (w : Option (Wr M)) : Mach σ M := { s with vars := put s.vars v w }

/-- the constructor from a user-defined object, algorithm.hpp 473-477 with `generic_ctor_impl`, algorithm.cpp 57-67 (problem.cpp 152-237,
bfe.cpp 55-62, topology.cpp 74-78, r_policy.cpp 58-61, s_policy.cpp 58-61): allocate, then ask the object. If this throws, the members
constructed so far are destroyed. -/
def make (ctor : σ → Except Exn M) (s : Mach σ M) (v : Var) (u : σ) : Outcome (Mach σ M × Option Exn) := do
  s.free? v
  let s' := s.alloc u
  match ctor u with
  | .error e => do
    let s'' ← s'.free (some s.next)
    .ok (s'', some e)
  | .ok m => .ok (s'.set v (some ⟨some s.next, m⟩), none)

/-- copy constructor, algorithm.cpp 79-83, problem.cpp 252-262, bfe.cpp 65-67, topology.cpp 80, r_policy.cpp 64, s_policy.cpp 64; `cp u`
is the exception thrown by copying the object `u`, if any -/
def copyCtor (ops : MemOps M) (cp : σ → Option Exn) (s : Mach σ M) (v w : Var) : Outcome (Mach σ M × Option Exn) := do
  s.free? v
  let src ← s.look w
  let u ← s.deref src
  match cp u with
  | some e => .ok (s, some e)
  | none =>
    let s' := s.alloc u
    .ok (s'.set v (some ⟨some s.next, ops.copy src.mem⟩), none)

/-- move constructor, algorithm.cpp 89-94, problem.cpp 268-279, bfe.cpp 70, topology.cpp 82, r_policy.cpp 67, s_policy.cpp 67 -/
def moveCtor (ops : MemOps M) (s : Mach σ M) (v w : Var) : Outcome (Mach σ M × Option Exn) := do
  s.free? v
  let src ← s.look w
  .ok ((s.set v (some ⟨src.ptr, (ops.move src.mem).1⟩)).set w (some ⟨none, (ops.move src.mem).2⟩), none)

/-- move assignment, algorithm.cpp 102-112, problem.cpp 287-313, bfe.cpp 73-81, topology.cpp 84-91, r_policy.cpp 70-77, s_policy.cpp 70-77:
the object owned before is deleted -/
def moveAssign (ops : MemOps M) (s : Mach σ M) (v w : Var) : Outcome (Mach σ M × Option Exn) := do
  let dst ← s.look v
  let src ← s.look w
  if v = w then .ok (s, none)
  else do
    let s' ← s.free dst.ptr
    let r := ops.assign dst.mem src.mem
    .ok ((s'.set v (some ⟨src.ptr, r.1⟩)).set w (some ⟨none, r.2⟩), none)

/-- destructor -/
def drop (s : Mach σ M) (v : Var) : Outcome (Mach σ M × Option Exn) := do
  let w ← s.look v
  let s' ← s.free w.ptr
  .ok (s'.set v none, none)

/-- copy assignment, algorithm.cpp 124-128, problem.cpp 325-329, bfe.cpp 84-88, topology.cpp 93-97, r_policy.cpp 80-84, s_policy.cpp 80-84:
a temporary is copy-constructed, move-assigned from and destroyed -/
def copyAssign (ops : MemOps M) (cp : σ → Option Exn) (s : Mach σ M) (v w : Var) : Outcome (Mach σ M × Option Exn) := do
  let _ ← s.look v
  let (s1, e1) ← copyCtor ops cp s none w
  match e1 with
  | some e => .ok (s1, some e)
  | none => do
    let (s2, _) ← moveAssign ops s1 v none
    drop s2 none

/-- assignment from a user-defined object, algorithm.hpp 502-506, problem.hpp 1080-1084, bfe.hpp 286-290, topology.hpp 330-334, r_policy.hpp
260-264, s_policy.hpp 260-264: a temporary is constructed from it, move-assigned
from and destroyed -/
def makeAssign (ctor : σ → Except Exn M) (ops : MemOps M) (s : Mach σ M) (v : Var) (u : σ) : Outcome (Mach σ M × Option Exn) := do
  let _ ← s.look v
  let (s1, e1) ← make ctor s none u
  match e1 with
  | some e => .ok (s1, some e)
  | none => do
    let (s2, _) ← moveAssign ops s1 v none
    drop s2 none

/-- A method of the wrapper that uses the object, e.g. `set_seed`, algorithm.cpp 158-161, or `fitness`, problem.cpp 354-379, that also counts
in a member of the wrapper: the object and the members after it, and the exception thrown. -/
def method (f : σ → M → (σ × M) × Option Exn) (s : Mach σ M) (v : Var) : Outcome (Mach σ M × Option Exn) := do
  let w ← s.look v
  let u ← s.deref w
  match w.ptr with
  | none => .ub
  | some a =>
    let r := f u w.mem
    .ok (({ s with heap := put s.heap a (some r.1.1) } : Mach σ M).set v (some ⟨some a, r.1.2⟩), r.2)

/-- the statements of a program -/
inductive Op (σ M : Type) where
  | make (v : Nat) (u : σ)
  | makeAssign (v : Nat) (u : σ)
  | copyCtor (v w : Nat)
  | moveCtor (v w : Nat)
  | copyAssign (v w : Nat)
  | moveAssign (v w : Nat)
  | method (f : σ → M → (σ × M) × Option Exn) (v : Nat)
  | drop (v : Nat)

/-- one statement -/
def step (ctor : σ → Except Exn M) (ops : MemOps M) (cp : σ → Option Exn) (s : Mach σ M) : Op σ M → Outcome (Mach σ M × Option Exn)
  | .make v u => make ctor s (some v) u
  | .makeAssign v u => makeAssign ctor ops s (some v) u
  | .copyCtor v w => copyCtor ops cp s (some v) (some w)
  | .moveCtor v w => moveCtor ops s (some v) (some w)
  | .copyAssign v w => copyAssign ops cp s (some v) (some w)
  | .moveAssign v w => moveAssign ops s (some v) (some w)
  | .method f v => method f s (some v)
  | .drop v => drop s (some v)

/-- a program, every exception caught after its statement: the states after the statements and the exceptions seen -/
def exec (ctor : σ → Except Exn M) (ops : MemOps M) (cp : σ → Option Exn) : Mach σ M → List (Op σ M) → Outcome (Mach σ M × List (Option Exn))
  | s, [] => .ok (s, [])
  | s, o :: os => do
    let (s', e) ← step ctor ops cp s o
    let (s'', es) ← exec ctor ops cp s' os
    .ok (s'', e :: es)

/-- nothing allocated, no variables -/
def Mach.empty : Mach σ M := ⟨fun _ => none, 0, fun _ => none⟩

/-! ## the members of the classes -/

/-- the members of `problem` other than `m_ptr`, problem.hpp 1652-1683, in the order of the constructors; `String`s and vectors are lists -/
structure ProbMem (K : Type) where
  fevals : Nat
  gevals : Nat
  hevals : Nat
  lb : List K
  ub : List K
  nobj : Nat
  nec : Nat
  nic : Nat
  nix : Nat
  cTol : List K
  hasBatch : Bool
  hasGrad : Bool
  hasGradSp : Bool
  hasHess : Bool
  hasHessSp : Bool
  hasSeed : Bool
  name : String
  gsDim : Nat
  hsDim : List Nat
  safety : Nat

/-- what a move leaves in the strings and vectors of a problem: unspecified -/
structure ProbLeft (K : Type) where
  lb : List K
  ub : List K
  cTol : List K
  hsDim : List Nat
  name : String

/-- `problem`: copy constructor 252-262, move constructor 268-279, move assignment 287-313, all of problem.cpp. The move constructor copies
`m_hs_dim`, the move assignment moves it. -/
def probOps {K : Type} (left : ProbMem K → ProbLeft K) : MemOps (ProbMem K) where
  copy o := ⟨o.fevals, o.gevals, o.hevals, o.lb, o.ub, o.nobj, o.nec, o.nic, o.nix, o.cTol, o.hasBatch, o.hasGrad, o.hasGradSp, o.hasHess,
    o.hasHessSp, o.hasSeed, o.name, o.gsDim, o.hsDim, o.safety⟩
  move o := (⟨o.fevals, o.gevals, o.hevals, o.lb, o.ub, o.nobj, o.nec, o.nic, o.nix, o.cTol, o.hasBatch, o.hasGrad, o.hasGradSp, o.hasHess,
    o.hasHessSp, o.hasSeed, o.name, o.gsDim, o.hsDim, o.safety⟩,
    { o with lb := (left o).lb, ub := (left o).ub, cTol := (left o).cTol, name := (left o).name })
  assign t o := ({ t with
      fevals := o.fevals
      gevals := o.gevals
      hevals := o.hevals
      lb := o.lb
      ub := o.ub
      nobj := o.nobj
      nec := o.nec
      nic := o.nic
      nix := o.nix
      cTol := o.cTol
      hasBatch := o.hasBatch
      hasGrad := o.hasGrad
      hasGradSp := o.hasGradSp
      hasHess := o.hasHess
      hasHessSp := o.hasHessSp
      hasSeed := o.hasSeed
      name := o.name
      gsDim := o.gsDim
      hsDim := o.hsDim
      safety := o.safety },
    { o with lb := (left o).lb, ub := (left o).ub, cTol := (left o).cTol, hsDim := (left o).hsDim, name := (left o).name })

/-- the members of `algorithm` other than `m_ptr`, algorithm.hpp 762-772 -/
structure AlgMem where
  hasSeed : Bool
  hasVerb : Bool
  name : String
  safety : Nat
  deriving DecidableEq

/-- `algorithm`: algorithm.cpp 79-83, 89-94, 102-112 -/
def algOps (left : AlgMem → String) : MemOps AlgMem where
  copy o := ⟨o.hasSeed, o.hasVerb, o.name, o.safety⟩
  move o := (⟨o.hasSeed, o.hasVerb, o.name, o.safety⟩, { o with name := left o })
  assign t o := ({ t with hasSeed := o.hasSeed, hasVerb := o.hasVerb, name := o.name, safety := o.safety }, { o with name := left o })

/-- `bfe` (name and thread safety): bfe.cpp 65-67, 70, 73-81 -/
def bfeOps (left : String × Nat → String) : MemOps (String × Nat) where
  copy o := (o.1, o.2)
  move o := ((o.1, o.2), (left o, o.2))
  assign _ o := ((o.1, o.2), (left o, o.2))

/-- `topology`, `r_policy` and `s_policy` (name): topology.cpp 80-91, r_policy.cpp 64-77, s_policy.cpp 64-77 -/
def nameOps (left : String → String) : MemOps String where
  copy o := o
  move o := (o, left o)
  assign _ o := (o, left o)

/-! ## the methods of `algorithm` -/

/-- A user-defined algorithm with state `σ`: the optional methods it has. Type traits, algorithm.hpp 60-200. -/
structure Uda (σ : Type) where
  setSeed : Option (Nat → σ → σ × Option Exn)
  hasSeed : Option (σ → Except Exn Bool)
  setVerb : Option (Nat → σ → σ × Option Exn)
  hasVerb : Option (σ → Except Exn Bool)
  name : Option (σ → Except Exn String)
  extra : Option (σ → Except Exn String)
  safety : Option (σ → Except Exn Nat)

/-- `algo_inner::has_set_seed`, `has_set_verbosity`, algorithm.hpp 262-282 and 294-314 -/
def hasImpl (method : Option (Nat → σ → σ × Option Exn)) (override : Option (σ → Except Exn Bool)) (u : σ) : Except Exn Bool :=
  match method, override with
  | some _, some f => f u
  | some _, none => .ok true
  | none, _ => .ok false

/-- `algo_inner::set_seed`, `set_verbosity`, algorithm.hpp 250-260 and 283-293 -/
def setImpl (method : Option (Nat → σ → σ × Option Exn)) (n : Nat) (u : σ) : σ × Option Exn :=
  match method with
  | some f => f n u
  | none => (u, some .notImplemented)

/-- `algo_inner::get_name`, `get_extra_info`, `get_thread_safety`, algorithm.hpp 315-344: the method or a default -/
def getImpl {α : Type} (method : Option (σ → Except Exn α)) (dflt : α) (u : σ) : Except Exn α :=
  match method with
  | some f => f u
  | none => .ok dflt

/-- `algorithm::generic_ctor_impl`, algorithm.cpp 57-67; `tn` is the name of the type; `thread_safety::basic` is 1, threading.hpp -/
def algCtor (U : Uda σ) (tn : String) (u : σ) : Except Exn AlgMem := do
  let a ← hasImpl U.setSeed U.hasSeed u
  let b ← hasImpl U.setVerb U.hasVerb u
  let n ← getImpl U.name tn u
  let t ← getImpl U.safety 1 u
  .ok ⟨a, b, n, t⟩

/-- `algorithm::set_seed`, algorithm.cpp 158-161 -/
def algSetSeed (U : Uda σ) (n : Nat) (u : σ) (m : AlgMem) : (σ × AlgMem) × Option Exn :=
  (((setImpl U.setSeed n u).1, m), (setImpl U.setSeed n u).2)

/-- `algorithm::set_verbosity`, algorithm.cpp 176-179 -/
def algSetVerb (U : Uda σ) (n : Nat) (u : σ) (m : AlgMem) : (σ × AlgMem) × Option Exn :=
  (((setImpl U.setVerb n u).1, m), (setImpl U.setVerb n u).2)

end Verif.Wrap
