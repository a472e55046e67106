import Verif.Base.Outcome

/-!
# Model of src/rng.cpp: `random_device::next`, `random_device::set_seed`

An interleaving transition system: any number of threads, each with a program of calls; a schedule is a list of thread
numbers. Advancing the engine is not atomic: reading its state and writing the new state are separate steps, and so are
acquiring and releasing the mutex. The engine is an arbitrary state machine.
-/

set_option autoImplicit false

namespace Verif.Rdev

open Verif

/-- `std::mt19937`: seeding and advancing. -/
structure Engine (σ : Type) where
  seed : Nat → σ
  next : σ → Nat × σ

/-- A call. -/
inductive Cl where
  | next
  | setSeed (s : Nat)
  deriving DecidableEq

/-- Position of a thread, src/rng.cpp 58-62 and 75-79. -/
inductive Pc (σ : Type) where
  | out
  /-- 60: about to lock -/
  | nextLock
  /-- 61: about to read the state of the engine -/
  | nextRead
  /-- 61: the state was read, about to write the new one -/
  | nextWrite (st : σ)
  /-- leaving the scope of the lock guard with the result -/
  | nextUnlock (v : Nat)
  /-- 77 -/
  | seedLock (s : Nat)
  /-- 78 -/
  | seedWrite (s : Nat)
  | seedUnlock (s : Nat)

/-- A finished call of a thread. -/
inductive Obs where
  | got (t : Nat) (v : Nat)
  | seeded (t : Nat) (s : Nat)
  deriving DecidableEq

structure Thread (σ : Type) where
  pc : Pc σ
  prog : List Cl

structure State (σ : Type) where
  rng : σ
  /-- the thread that holds `global_rng_mutex` -/
  owner : Option Nat
  threads : List (Thread σ)
  /-- the calls, in the order in which they released the mutex -/
  log : List Obs

variable {σ : Type}

def init (st : σ) (progs : List (List Cl)) : State σ :=
  { rng := st, owner := none, threads := progs.map (fun p => ⟨.out, p⟩), log := [] }

/-- Thread `t` moves to `pc`. -/
def goto (s : State σ) (t : Nat) (th : Thread σ) (pc : Pc σ) : State σ := { s with threads := s.threads.set t { th with pc := pc } }

/-- One step of thread `t`; `none` if it cannot move (blocked on the mutex, or its program is over). -/
def step (g : Engine σ) (s : State σ) (t : Nat) : Option (State σ) :=
  match s.threads[t]? with
  | none => none
  | some th =>
    match th.pc with
    | .out =>
      match th.prog with
      | [] => none
      | .next :: p => some (goto s t { th with prog := p } .nextLock)
      | .setSeed v :: p => some (goto s t { th with prog := p } (.seedLock v))
    | .nextLock => if s.owner = none then some (goto { s with owner := some t } t th .nextRead) else none
    | .nextRead => some (goto s t th (.nextWrite s.rng))
    | .nextWrite st => some (goto { s with rng := (g.next st).2 } t th (.nextUnlock (g.next st).1))
    | .nextUnlock v => some (goto { s with owner := none, log := s.log ++ [.got t v] } t th .out)
    | .seedLock v => if s.owner = none then some (goto { s with owner := some t } t th (.seedWrite v)) else none
    | .seedWrite v => some (goto { s with rng := g.seed v } t th (.seedUnlock v))
    | .seedUnlock v => some (goto { s with owner := none, log := s.log ++ [.seeded t v] } t th .out)

/-- An execution. -/
def run (g : Engine σ) (s : State σ) : List Nat → Option (State σ)
  | [] => some s
  | t :: ts =>
    match step g s t with
    | none => none
    | some s => run g s ts

end Verif.Rdev
