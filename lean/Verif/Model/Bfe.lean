import Verif.Model.Problem

/-!
# Model of batch fitness evaluation: src/batch_evaluators/thread_bfe.cpp, default_bfe.cpp, src/bfe.cpp

`tbb::parallel_for` over `[0, n)` calls the body once on each range of some partition of `[0, n)` into ranges, with any
interleaving. Partition and schedule are arguments of the model; the atomic steps of a task are: evaluate one decision
vector, write one value of the result.
-/

set_option autoImplicit false

namespace Verif.Bfe

open Verif Prob

variable {K : Type}

/-- `thread_safety`, include/pagmo/threading.hpp -/
inductive Safety where
  | none
  | basic
  | constant
  deriving DecidableEq

/-- What `thread_bfe` uses of a problem; `user` is the (pure) fitness function of the UDP. -/
structure P (K : Type) where
  nx : Nat
  nf : Nat
  safety : Safety
  user : List (Fl K) → User (List (Fl K))

/-- `problem::fitness`, src/problem.cpp 353-379 (counters are in `Verif.Model.Problem`; those of the copy that
`thread_bfe` works on are not visible to the caller). -/
def P.fitness (p : P K) (dv : List (Fl K)) : Outcome (List (Fl K)) := do
  checkLen p.nx dv
  let f ← ofUser (p.user dv)
  checkLen p.nf f
  .ok f

/-- One invocation of the body of the parallel loop, src/batch_evaluators/thread_bfe.cpp 90-120: current `begin`,
`end`, and the values of `fv` still to be copied to `out_ptr`, with the position of the next one. -/
structure Worker (K : Type) where
  beg : Nat
  fin : Nat
  pos : Nat
  pend : List (Fl K)

/-- `std::copy(in_ptr, in_ptr + n_dim, ...)` -/
def slice (dvs : List (Fl K)) (start n : Nat) : Outcome (List (Fl K)) :=
  if start + n ≤ dvs.length then .ok ((dvs.drop start).take n) else .ub

/-- One atomic step of a task on the shared result vector. -/
def Worker.step (p : P K) (dvs ret : List (Fl K)) (t : Worker K) : Outcome (List (Fl K) × Worker K) :=
  match t.pend with
  | v :: vs => do
    let ret' ← Outcome.set ret t.pos v
    .ok (ret', { t with pos := t.pos + 1, pend := vs })
  | [] =>
    if t.beg = t.fin then .ok (ret, t)
    else do
      let dv ← slice dvs (t.beg * p.nx) p.nx
      let fv ← p.fitness dv
      .ok (ret, { t with beg := t.beg + 1, pos := t.beg * p.nf, pend := fv })

/-- The parallel loop under a schedule (the list of tasks taking the next step). An exception in a task is rethrown
by `parallel_for`. -/
def runTasks (p : P K) (dvs : List (Fl K)) : List Nat → List (Fl K) × List (Worker K) →
    Outcome (List (Fl K) × List (Worker K))
  | [], s => .ok s
  | i :: is, (ret, ts) =>
    match ts[i]? with
    | none => runTasks p dvs is (ret, ts)
    | some t => do
      let (ret', t') ← t.step p dvs ret
      runTasks p dvs is (ret', ts.set i t')

/-- a task that has nothing left to do -/
def Worker.finished (t : Worker K) : Bool := t.beg == t.fin && t.pend.isEmpty

/-- tasks at the beginning -/
def startTasks (ranges : List (Nat × Nat)) : List (Worker K) :=
  ranges.map (fun r => { beg := r.1, fin := r.2, pos := 0, pend := [] })

/-- `thread_bfe::operator()`, src/batch_evaluators/thread_bfe.cpp 64-144. `nofuel`: the schedule given is too short
for the loop to be over. The two ways of passing the problem (by reference or by copy) are the same for a pure
fitness function. -/
def threadBfe (p : P K) (dvs : List (Fl K)) (zero : Fl K) (ranges : List (Nat × Nat)) (sched : List Nat) :
    Outcome (List (Fl K)) :=
  let n := dvs.length / p.nx
  if n > sizeMax / p.nf then .throws .overflowError
  else if p.safety = .none then .throws .invalidArgument
  else do
    let (ret, ts) ← runTasks p dvs sched (List.replicate (n * p.nf) zero, startTasks ranges)
    if ts.all Worker.finished then .ok ret else .nofuel

/-- `bfe::operator()` holding a `thread_bfe`, src/bfe.cpp 91-110. -/
def bfeThread (p : P K) (dvs : List (Fl K)) (zero : Fl K) (ranges : List (Nat × Nat)) (sched : List Nat) :
    Outcome (List (Fl K)) := do
  checkInput p.nx dvs
  let fvs ← threadBfe p dvs zero ranges sched
  checkOutput p.nx p.nf dvs fvs
  .ok fvs

/-- `member_bfe::operator()`, src/batch_evaluators/member_bfe.cpp 40-45, i.e. `prob_invoke_mem_batch_fitness`
src/problem.cpp 972-984 without the counter update; no checks here. -/
def memberBfe (g : List (Fl K) → User (List (Fl K))) (dvs : List (Fl K)) : Outcome (List (Fl K)) :=
  ofUser (g dvs)

/-- `default_bfe_cpp_impl`, src/batch_evaluators/default_bfe.cpp 53-71; `g` is the UDP's `batch_fitness()` if it has
one. -/
def defaultBfe (p : P K) (g : Option (List (Fl K) → User (List (Fl K)))) (dvs : List (Fl K)) (zero : Fl K)
    (ranges : List (Nat × Nat)) (sched : List Nat) : Outcome (List (Fl K)) :=
  match g with
  | some g => memberBfe g dvs
  | none => if p.safety = .none then .throws .invalidArgument else threadBfe p dvs zero ranges sched

/-- `bfe::operator()` holding a `default_bfe`, src/bfe.cpp 91-110. -/
def bfeDefault (p : P K) (g : Option (List (Fl K) → User (List (Fl K)))) (dvs : List (Fl K)) (zero : Fl K)
    (ranges : List (Nat × Nat)) (sched : List Nat) : Outcome (List (Fl K)) := do
  checkInput p.nx dvs
  let fvs ← defaultBfe p g dvs zero ranges sched
  checkOutput p.nx p.nf dvs fvs
  .ok fvs

end Verif.Bfe
