import Verif.Base.Outcome

/-!
# Model of src/detail/task_queue.cpp

An interleaving transition system. Threads: the worker created by the constructor and any number of client threads,
each with a program of calls. A schedule is a list of events: a thread takes its next step (for `notify_one` the event
also says which of the blocked threads is woken, the standard leaves this open), or a blocked thread wakes up
spuriously. Acquiring the mutex, evaluating a predicate, blocking, every access to shared data outside the mutex and
every notification is a step of its own. Memory is sequentially consistent (the atomic flag uses the default order, the
rest is protected by the mutex). A task is a number; running it may take any time (any number of steps of other threads)
but it ends: `std::packaged_task` stores exceptions.
-/

set_option autoImplicit false

namespace Verif.TQ

open Verif

/-- Thread names. -/
inductive Who where
  | worker
  | client (i : Nat)
  deriving DecidableEq

/-- Position of the worker in the loop of src/detail/task_queue.cpp 42-79. -/
inductive WPc where
  /-- 45: about to lock -/
  | lock
  /-- 50: evaluating the predicate (mutex held) -/
  | pred
  /-- 50: the predicate was false, `wait` is about to release the mutex and block -/
  | sleep
  | blocked
  /-- woken up, about to lock again -/
  | woken
  /-- 52-60 (mutex held) -/
  | take
  /-- 66 (mutex held) -/
  | flag (k : Nat)
  /-- 70 (mutex held) -/
  | unlock (k : Nat)
  /-- 73, before the task begins -/
  | start (k : Nat)
  /-- 73, in the task -/
  | running (k : Nat)
  /-- 76 -/
  | store
  /-- 81 -/
  | notify
  /-- 55: left the loop -/
  | exited
  deriving DecidableEq

/-- A call on the queue. -/
inductive Cl where
  | enqueue (k : Nat)
  | waitAll
  | destroy
  deriving DecidableEq

/-- Position of a client: `enqueue_impl` 97-107, `wait_all` 114-129, `~task_queue` 131-152. -/
inductive CPc where
  | idle
  | enqLock (k : Nat)
  | enqPush (k : Nat)
  | enqUnlock
  | enqNotify
  | waLock
  | waPred
  | waSleep
  | waBlocked
  | waWoken
  | waReturn
  | dLock
  | dStop
  | dUnlock
  | dNotify
  | dJoin
  deriving DecidableEq

/-- A client thread: position and calls still to make. -/
structure Client where
  pc : CPc
  prog : List Cl
  deriving DecidableEq

/-- What can be observed, in order. -/
inductive Obs where
  /-- client `i` put task `k` in the queue -/
  | push (i k : Nat)
  /-- `enqueue` returned to client `i` -/
  | enqRet (i : Nat)
  | start (k : Nat)
  | finish (k : Nat)
  /-- client `i` called `wait_all` -/
  | waitCall (i : Nat)
  /-- `wait_all` returned to client `i` -/
  | waitRet (i : Nat)
  /-- the destructor called by client `i` has set the stop flag -/
  | stop (i : Nat)
  /-- the destructor returned to client `i` -/
  | dtorRet (i : Nat)
  deriving DecidableEq

/-- Data members of the queue (include/pagmo/detail/task_queue.hpp 65-81), positions of the threads, and the log of
observations. `owner` is the state of the mutex; the threads blocked on the condition variable are those at `blocked`
and `waBlocked`. -/
structure State where
  stop : Bool
  running : Bool
  tasks : List Nat
  owner : Option Who
  worker : WPc
  clients : List Client
  log : List Obs
  deriving DecidableEq

/-- A new queue and clients with programs. -/
def init (progs : List (List Cl)) : State :=
  { stop := false, running := false, tasks := [], owner := none, worker := .lock,
    clients := progs.map (fun p => ⟨.idle, p⟩), log := [] }

/-- Is anybody blocked on the condition variable? -/
def anyBlocked (s : State) : Bool := s.worker == .blocked || s.clients.any (fun c => c.pc == .waBlocked)

/-- A blocked thread is woken up; `none` if it is not blocked. -/
def wake (s : State) : Who → Option State
  | .worker => if s.worker = .blocked then some { s with worker := .woken } else none
  | .client i =>
    match s.clients[i]? with
    | some c => if c.pc = .waBlocked then some { s with clients := s.clients.set i { c with pc := .waWoken } } else none
    | none => none

/-- `m_cond.notify_one()`: wakes one blocked thread, `t`; without blocked threads it does nothing. -/
def notifyOne (s : State) (t : Who) : Option State := if anyBlocked s then wake s t else some s

/-- One step of the worker, src/detail/task_queue.cpp 42-83; `t` is used by `notify_one`. -/
def workerStep (s : State) (t : Who) : Option State :=
  match s.worker with
  | .lock => if s.owner = none then some { s with owner := some .worker, worker := .pred } else none
  | .pred =>
    if s.stop || !s.tasks.isEmpty then some { s with worker := .take } else some { s with worker := .sleep }
  | .sleep => some { s with owner := none, worker := .blocked }
  | .blocked => none
  | .woken => if s.owner = none then some { s with owner := some .worker, worker := .pred } else none
  | .take =>
    if s.stop && s.tasks.isEmpty then some { s with owner := none, worker := .exited }
    else match s.tasks with
      | [] => none
      | k :: ks => some { s with tasks := ks, worker := .flag k }
  | .flag k => some { s with running := true, worker := .unlock k }
  | .unlock k => some { s with owner := none, worker := .start k }
  | .start k => some { s with worker := .running k, log := s.log ++ [.start k] }
  | .running k => some { s with worker := .store, log := s.log ++ [.finish k] }
  | .store => some { s with running := false, worker := .notify }
  | .notify => notifyOne { s with worker := .lock } t
  | .exited => none

/-- client `i` moves to position `pc` -/
def goto (s : State) (i : Nat) (c : Client) (pc : CPc) : State :=
  { s with clients := s.clients.set i { c with pc := pc } }

/-- One step of client `i`. -/
def clientStep (s : State) (i : Nat) (c : Client) (t : Who) : Option State :=
  let me := Who.client i
  match c.pc with
  | .idle =>
    match c.prog with
    | [] => none
    | .enqueue k :: p => some (goto s i ⟨.idle, p⟩ (.enqLock k))
    | .waitAll :: p => some (goto { s with log := s.log ++ [.waitCall i] } i ⟨.idle, p⟩ .waLock)
    | .destroy :: p => some (goto s i ⟨.idle, p⟩ .dLock)
  | .enqLock k => if s.owner = none then some (goto { s with owner := some me } i c (.enqPush k)) else none
  | .enqPush k => some (goto { s with tasks := s.tasks ++ [k], log := s.log ++ [.push i k] } i c .enqUnlock)
  | .enqUnlock => some (goto { s with owner := none } i c .enqNotify)
  | .enqNotify => notifyOne (goto { s with log := s.log ++ [.enqRet i] } i c .idle) t
  | .waLock => if s.owner = none then some (goto { s with owner := some me } i c .waPred) else none
  | .waPred => if s.running = false ∧ s.tasks = [] then some (goto s i c .waReturn) else some (goto s i c .waSleep)
  | .waSleep => some (goto { s with owner := none } i c .waBlocked)
  | .waBlocked => none
  | .waWoken => if s.owner = none then some (goto { s with owner := some me } i c .waPred) else none
  | .waReturn => some (goto { s with owner := none, log := s.log ++ [.waitRet i] } i c .idle)
  | .dLock => if s.owner = none then some (goto { s with owner := some me } i c .dStop) else none
  | .dStop => some (goto { s with stop := true, log := s.log ++ [.stop i] } i c .dUnlock)
  | .dUnlock => some (goto { s with owner := none } i c .dNotify)
  | .dNotify => notifyOne (goto s i c .dJoin) t
  | .dJoin => if s.worker = .exited then some (goto { s with log := s.log ++ [.dtorRet i] } i c .idle) else none

/-- Events of a schedule. -/
inductive Ev where
  /-- thread `w` takes a step; if that is a notification, `t` is woken -/
  | run (w t : Who)
  /-- spurious wakeup of a blocked thread -/
  | spurious (w : Who)
  deriving DecidableEq

/-- One event; `none`: it cannot happen. -/
def step (s : State) : Ev → Option State
  | .run .worker t => workerStep s t
  | .run (.client i) t =>
    match s.clients[i]? with
    | some c => clientStep s i c t
    | none => none
  | .spurious w => wake s w

/-- An execution: all events of the schedule take place. -/
def exec : State → List Ev → Option State
  | s, [] => some s
  | s, e :: es =>
    match step s e with
    | some s' => exec s' es
    | none => none

end Verif.TQ
