import Verif.Base.Outcome

/-!
# Model of the control part of src/island.cpp: `evolve`, `wait`, `wait_check`, `status`

An interleaving transition system with two actors: the thread that owns the island and makes calls on it (the vector of
futures is not protected by a mutex, so calls on one island come from one thread at a time), and the task queue, which
finishes the enqueued evolutions in the order in which they were enqueued (this is theorem `C37_tasks` about the model of
`task_queue`), at any time. What an evolution does is arbitrary here: it ends normally or by an exception.
-/

set_option autoImplicit false

namespace Verif.Isl

open Verif

/-- How an evolution ended: normally, or by an exception. -/
abbrev Res := Option Exn

/-- An element of `island_data::futures` (include/pagmo/island.hpp 353): it refers to the `k`-th task ever enqueued, or
to the state of a `std::promise` set in `future_has_exception` (src/island.cpp 114-122), or its value was taken by
`get()`. -/
inductive Fut where
  | task (k : Nat)
  | stored (r : Res)
  | invalid
  deriving DecidableEq

/-- `evolve_status`, include/pagmo/island.hpp. -/
inductive Status where
  | idle
  | busy
  | idleError
  | busyError
  deriving DecidableEq

/-- What the owner of the island and its tasks can observe, in order. -/
inductive Obs where
  /-- `evolve` returned -/
  | evolve
  /-- `evolve` threw -/
  | evolveThrew (e : Exn)
  /-- the oldest unfinished evolution ended -/
  | finish (r : Res)
  | statusCall
  | statusRet (v : Status)
  | waitCall
  | waitRet
  | checkCall
  /-- `wait_check` returned or threw -/
  | checkRet (r : Res)
  deriving DecidableEq

/-- Position of the owner. -/
inductive Pc where
  /-- not in a call -/
  | out
  /-- src/island.cpp 755: at the `i`-th future, `error` -/
  | statusAt (i : Nat) (error : Bool)
  /-- src/island.cpp 761, 763, 771, 774 -/
  | statusRet (v : Status)
  /-- src/island.cpp 711: at the `i`-th future, `it_first_exc` -/
  | waitAt (i : Nat) (firstExc : Option Nat)
  /-- src/island.cpp 672: at the `i`-th future -/
  | checkAt (i : Nat)
  /-- src/island.cpp 681: at the `i`-th future, the exception to be rethrown -/
  | drainAt (i : Nat) (e : Exn)
  /-- a future without shared state or a dangling iterator was used: undefined behaviour -/
  | ub
  deriving DecidableEq

structure State where
  /-- number of tasks enqueued so far -/
  enq : Nat
  /-- results of the finished tasks, in order -/
  fin : List Res
  futures : List Fut
  pc : Pc
  log : List Obs
  deriving DecidableEq

/-- A new island. -/
def init : State := { enq := 0, fin := [], futures := [], pc := .out, log := [] }

/-- What is known of a future. -/
inductive Look where
  | bad
  | notReady
  | ready (r : Res)

/-- `wait_for(0)` / `get()` on a future. -/
def look (s : State) : Fut → Look
  | .invalid => .bad
  | .stored r => .ready r
  | .task k =>
    match s.fin[k]? with
    | none => .notReady
    | some r => .ready r

/-- `island::status`, src/island.cpp 755-774, one iteration of the loop or the end of it. `future_has_exception`
(104-125) takes the value of the future and puts it in a new one; it is not called once `error` is set (`||`). The
test for a running task and `future_has_exception` are one step: a finished task stays finished. -/
def statusStep (s : State) (i : Nat) (error : Bool) : State :=
  match s.futures[i]? with
  | none => { s with pc := .statusRet (if error then .idleError else .idle) }
  | some f =>
    match look s f with
    | .bad => { s with pc := .ub }
    | .notReady => { s with pc := .statusRet (if error then .busyError else .busy) }
    | .ready r =>
      if error then { s with pc := .statusAt (i + 1) true }
      else { s with futures := s.futures.set i (.stored r), pc := .statusAt (i + 1) r.isSome }

/-- `island::wait`, src/island.cpp 709-727, one iteration of the loop or the end of it; `none` while blocked. -/
def waitStep (s : State) (i : Nat) (firstExc : Option Nat) : Option State :=
  match s.futures[i]? with
  | none =>
    match firstExc with
    | none => some { s with futures := [], pc := .out, log := s.log ++ [.waitRet] }
    | some j =>
      match s.futures[j]? with
      | none => some { s with pc := .ub }
      | some f => some { s with futures := [f], pc := .out, log := s.log ++ [.waitRet] }
  | some f =>
    match look s f with
    | .bad => some { s with pc := .ub }
    | .notReady => none
    | .ready r =>
      if firstExc = none then
        some { s with futures := s.futures.set i (.stored r), pc := .waitAt (i + 1) (if r.isSome then some i else none) }
      else some { s with pc := .waitAt (i + 1) firstExc }

/-- `island::wait_check`, src/island.cpp 672-688, one iteration of the outer loop or its end; `none` while blocked. -/
def checkStep (s : State) (i : Nat) : Option State :=
  match s.futures[i]? with
  | none => some { s with futures := [], pc := .out, log := s.log ++ [.checkRet none] }
  | some f =>
    match look s f with
    | .bad => some { s with pc := .ub }
    | .notReady => none
    | .ready none => some { s with futures := s.futures.set i .invalid, pc := .checkAt (i + 1) }
    | .ready (some e) => some { s with futures := s.futures.set i .invalid, pc := .drainAt (i + 1) e }

/-- `island::wait_check`, src/island.cpp 681-685; `none` while blocked. -/
def drainStep (s : State) (i : Nat) (e : Exn) : Option State :=
  match s.futures[i]? with
  | none => some { s with futures := [], pc := .out, log := s.log ++ [.checkRet (some e)] }
  | some f =>
    match look s f with
    | .bad => some { s with pc := .ub }
    | .notReady => none
    | .ready _ => some { s with pc := .drainAt (i + 1) e }

/-- What can happen next. -/
inductive Ev where
  /-- the owner calls `evolve`, `enqueue` succeeds. src/island.cpp 433-438 as one step: only the owner sees the vector
  of futures. -/
  | evolve
  /-- `enqueue` throws, src/island.cpp 646-651: the empty future is removed -/
  | evolveFails (e : Exn)
  | status
  | wait
  | waitCheck
  /-- the next step of the call the owner is in -/
  | step
  /-- the oldest unfinished evolution ends -/
  | finish (r : Res)
  deriving DecidableEq

/-- The transitions; `none` if the event cannot happen now. -/
def next (s : State) : Ev → Option State
  | .evolve => if s.pc = .out then
      some { s with enq := s.enq + 1, futures := s.futures ++ [Fut.task s.enq], log := s.log ++ [.evolve] } else none
  | .evolveFails e => if s.pc = .out then
      some { s with futures := (s.futures ++ [Fut.invalid]).dropLast, log := s.log ++ [.evolveThrew e] } else none
  | .status => if s.pc = .out then some { s with pc := .statusAt 0 false, log := s.log ++ [.statusCall] } else none
  | .wait => if s.pc = .out then some { s with pc := .waitAt 0 none, log := s.log ++ [.waitCall] } else none
  | .waitCheck => if s.pc = .out then some { s with pc := .checkAt 0, log := s.log ++ [.checkCall] } else none
  | .finish r => if s.fin.length < s.enq then some { s with fin := s.fin ++ [r], log := s.log ++ [.finish r] } else none
  | .step =>
    match s.pc with
    | .out => none
    | .ub => none
    | .statusAt i error => some (statusStep s i error)
    | .statusRet v => some { s with pc := .out, log := s.log ++ [.statusRet v] }
    | .waitAt i first => waitStep s i first
    | .checkAt i => checkStep s i
    | .drainAt i e => drainStep s i e

/-- An execution. -/
def run (s : State) : List Ev → Option State
  | [] => some s
  | e :: es =>
    match next s e with
    | none => none
    | some s => run s es

end Verif.Isl
