import Verif.Base.Outcome

/-!
# Model of fork_island::run_evolve (src/islands/fork_island.cpp)

Two processes and a pipe. Every system call is a step; the steps of the two processes interleave arbitrarily. The
environment decides how many bytes a `read` returns, which system calls fail, when the child is killed, and which other
processes (children of other fork islands) inherit the write end of the pipe and for how long.

Taken from POSIX: a blocking `write` of at most `PIPE_BUF` bytes is atomic, it waits until there is room for all of it;
`read` returns at least one byte if there is one, waits while the pipe is empty and has a writer, and returns 0
otherwise. Serialisation is a parameter (`Codec`). Not modelled: `get_extra_info`, what other threads of the parent do
to the island meanwhile (see Model/Snapshot.lean), a failing `kill` (the parent exits), the constructor of the pipe.
-/

set_option autoImplicit false

namespace Verif.Fork

variable {B W A P : Type}

/-- `message_t`, fork_island.cpp 172. -/
structure Msg (W A P : Type) where
  flag : Bool
  what : W
  algo : A
  pop : P
  deriving DecidableEq

/-- The binary archives: `oarchive << m` may throw (with a message or without), `iarchive >> m` may throw. -/
structure Codec (B W A P : Type) where
  ser : Msg W A P → Except (Option W) (List B)
  deser : List B → Except Exn (Msg W A P)

/-- The result of `algo.evolve(pop)`: the algorithm (its state may change) and the new population, or an exception
that is a `std::exception` or not. -/
abbrev Evolve (W A P : Type) := A → P → Except (Option W) (A × P)

/-- The parts that do not change: serialisation, the algorithm, `""`, `algorithm{}`, `population{}`, the capacity of
the pipe. -/
structure Env (B W A P : Type) where
  codec : Codec B W A P
  evolve : Evolve W A P
  noWhat : W
  defAlgo : A
  defPop : P
  cap : Nat

/-- Why `run_evolve` throws in the parent. -/
inductive Err (W : Type) where
  /-- `fork` failed, 179-185 -/
  | fork
  /-- `close_w`, `read` or `close_r` failed -/
  | io
  /-- the archive threw -/
  | archive (e : Exn)
  /-- `waitpid` failed, 249-254 -/
  | wait
  /-- the child reported an error, 257-261 -/
  | child (what : W)
  deriving DecidableEq

/-- Where the parent is. -/
inductive Parent (B W A P : Type) where
  /-- 177-178: about to fork -/
  | start
  /-- 205: `p.close_w()` -/
  | closeW
  /-- 210-217: in the loop; `acc` is the contents of `ss` -/
  | read (acc : List B)
  /-- 218-219 -/
  | deser (acc : List B)
  /-- 222: `p.close_r()` -/
  | closeR (m : Msg W A P)
  /-- 226: `kill` after an error -/
  | kill (e : Err W)
  /-- 239: `waitpid` after an error -/
  | reap (e : Err W)
  /-- 249: `waitpid` -/
  | wait (m : Msg W A P)
  /-- 257 -/
  | check (m : Msg W A P)
  /-- 262 -/
  | setAlgo (m : Msg W A P)
  /-- 263 -/
  | setPop (m : Msg W A P)
  /-- returned or threw -/
  | done (e : Option (Err W))
  deriving DecidableEq

/-- Where the child is. -/
inductive Child (B W A P : Type) where
  | unborn
  /-- 296-306: `close_r`, `evolve`, packing -/
  | run
  /-- 308-309 or 336-341: about to serialise; `last` in the second try block -/
  | ser (m : Msg W A P) (last : Bool)
  /-- 281-290: the loop of `send_ss`; `rest` is what was not yet read from the stream -/
  | send (rest : List B) (eof : Bool)
  /-- 317, 344: `p.close_w()` -/
  | closeW
  /-- exited with a code, or killed -/
  | exited (code : Option Nat)
  deriving DecidableEq

structure State (B W A P : Type) where
  /-- the algorithm and the population of the island, in the parent -/
  algo : A
  pop : P
  parent : Parent B W A P
  child : Child B W A P
  pipe : List B
  /-- the write end is open in the parent -/
  parentW : Bool
  /-- other processes that have the write end open -/
  others : Nat
  /-- `m_pid` is not zero -/
  pid : Bool
  /-- the child was waited for -/
  reaped : Bool
  /-- auxiliary: everything written to the pipe so far -/
  written : List B
  /-- auxiliary: what the child set out to send -/
  want : Option (Msg W A P × List B)
  deriving DecidableEq

/-- What happens next. -/
inductive Ev (W : Type) where
  /-- a step of the parent; `ok` is false if the system call fails, `n` is the number of bytes `read` returns -/
  | parent (ok : Bool) (n : Nat)
  /-- a step of the child; `fail` if the operation fails, with the message of the exception -/
  | child (fail : Option (Option W))
  /-- the child is killed -/
  | die
  /-- another process inherits the write end -/
  | inherit
  /-- another process closes the write end -/
  | release
  deriving DecidableEq

/-- The beginning of `run_evolve`, with the pipe constructed, fork_island.cpp 172-176. -/
def init (a : A) (p : P) : State B W A P := ⟨a, p, .start, .unborn, [], true, 0, false, false, [], none⟩

/-- The child has its write end open. -/
def childW : Child B W A P → Bool
  | .unborn | .exited _ => false
  | _ => true

/-- `sizeof(buffer)`, fork_island.cpp 208 and 279. -/
def bufSize : Nat := 100

/-- The message sent when something went wrong, fork_island.cpp 324-340: the message of the exception, if there is one. -/
def errMsg (v : Env B W A P) (what : Option W) : Msg W A P := ⟨true, what.getD v.noWhat, v.defAlgo, v.defPop⟩

/-- A step of the child, fork_island.cpp 264-351. The island in the child is a copy made by `fork`: the parent does not
change its own while the child runs, hence `s.algo` and `s.pop` here. -/
def childStep (v : Env B W A P) (s : State B W A P) (fail : Option (Option W)) : Option (State B W A P) :=
  match s.child, fail with
  | .run, none => match v.evolve s.algo s.pop with
    | .ok r => some { s with child := .ser ⟨false, v.noWhat, r.1, r.2⟩ false }
    | .error w => some { s with child := .ser (errMsg v w) true }
  | .run, some w => some { s with child := .ser (errMsg v w) true }
  | .ser m last, none => match v.codec.ser m with
    | .ok l => some { s with child := .send l false, want := some (m, l) }
    | .error w => some { s with child := if last then .exited (some 1) else .ser (errMsg v w) true }
  | .ser _ last, some w => some { s with child := if last then .exited (some 1) else .ser (errMsg v w) true }
  | .send rest false, none =>
    -- ss.read takes up to 100 bytes, eof is set if there are fewer than 100 left
    if s.pipe.length + (rest.take bufSize).length ≤ v.cap then
      some { s with child := .send (rest.drop bufSize) (decide (rest.length < bufSize)), pipe := s.pipe ++ rest.take bufSize, written := s.written ++ rest.take bufSize }
    else none
  | .send _ true, none => some { s with child := .closeW }
  | .send _ _, some _ => some { s with child := .exited (some 1) }
  | .closeW, none => some { s with child := .exited (some 0) }
  | .closeW, some _ => some { s with child := .exited (some 1) }
  | .unborn, _ => none
  | .exited _, _ => none

/-- A step of the parent, fork_island.cpp 177-263. -/
def parentStep (v : Env B W A P) (s : State B W A P) (ok : Bool) (n : Nat) : Option (State B W A P) :=
  match s.parent with
  | .start => if ok then some { s with parent := .closeW, child := .run, pid := true } else some { s with parent := .done (some .fork) }
  | .closeW => if ok then some { s with parent := .read [], parentW := false } else some { s with parent := .kill .io }
  | .read acc =>
    if !ok then some { s with parent := .kill .io }
    else match s.pipe with
      | [] => if !s.parentW && !childW s.child && s.others == 0 then some { s with parent := .deser acc } else none
      | b :: bs => if 1 ≤ n ∧ n ≤ bufSize ∧ n ≤ (b :: bs).length then some { s with parent := .read (acc ++ (b :: bs).take n), pipe := (b :: bs).drop n } else none
  | .deser acc => match v.codec.deser acc with
    | .ok m => some { s with parent := .closeR m }
    | .error e => some { s with parent := .kill (.archive e) }
  | .closeR m => if ok then some { s with parent := .wait m } else some { s with parent := .kill .io }
  | .kill e => some { s with parent := .reap e }
  | .reap e => match s.child with
    | .exited _ => some { s with parent := .done (some e), reaped := true, pid := false }
    | _ => none
  | .wait m => if ok then match s.child with
      | .exited _ => some { s with parent := .check m, reaped := true }
      | _ => none
    else some { s with parent := .done (some .wait), pid := false }
  | .check m => if m.flag then some { s with parent := .done (some (.child m.what)), pid := false } else some { s with parent := .setAlgo m }
  | .setAlgo m => some { s with parent := .setPop m, algo := m.algo }
  | .setPop m => some { s with parent := .done none, pop := m.pop, pid := false }
  | .done _ => none

/-- One event. A child that does not exist cannot be killed. -/
def next (v : Env B W A P) (s : State B W A P) : Ev W → Option (State B W A P)
  | .parent ok n => parentStep v s ok n
  | .child fail => childStep v s fail
  | .die => match s.child with
    | .unborn | .exited _ => none
    | _ => some { s with child := .exited none }
  | .inherit => if s.parentW || childW s.child then some { s with others := s.others + 1 } else none
  | .release => if 0 < s.others then some { s with others := s.others - 1 } else none

/-- A run. -/
def run (v : Env B W A P) (s : State B W A P) : List (Ev W) → Option (State B W A P)
  | [] => some s
  | e :: es => match next v s e with
    | none => none
    | some s => run v s es

end Verif.Fork
