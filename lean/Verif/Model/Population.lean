import Verif.Base.Run
import Verif.Model.Constrained

/-!
# Model of src/population.cpp

A population is a state; every method is a `Run`, so what a throwing call leaves behind is part of the model.
Memory allocation may fail: the state carries a list of fault bits, consumed one per allocation point
(`true` = this allocation throws `std::bad_alloc`; when the list is used up allocations succeed).
User code (the fitness function) is arbitrary: its result, a vector or an exception, is part of the call.
-/

set_option autoImplicit false

namespace Verif.Pop

open Verif

variable {K : Type} [Field K] [LinearOrder K]

/-- The properties of `m_prob` that population code uses. -/
structure Info where
  nx : Nat
  nobj : Nat
  nec : Nat
  nic : Nat
  stochastic : Bool

/-- `problem::get_nf()`, src/problem.cpp (number of objectives plus constraints) -/
def Info.nf (P : Info) : Nat := P.nobj + P.nec + P.nic

/-- `problem::get_nc()` -/
def Info.nc (P : Info) : Nat := P.nec + P.nic

/-- The data members of `population`, include/pagmo/population.hpp 334-348 (the random engine is `ids`, the
stream of IDs it is going to produce), the tolerances stored in `m_prob`, and the fault bits. -/
structure State (K : Type) where
  id : List Nat
  x : List (List (Fl K))
  f : List (List (Fl K))
  chX : List (Fl K)
  chF : List (Fl K)
  tol : List (Fl K)
  rng : Nat → Nat
  faults : List Bool

/-- An allocation point. -/
def alloc : Run (State K) Unit := fun s =>
  match s.faults with
  | true :: t => (.throws .badAlloc, { s with faults := t })
  | false :: t => (.ok (), { s with faults := t })
  | [] => (.ok (), s)

/-- `population::update_champion`, src/population.cpp 612-637. The by-value arguments are two allocations made
before the body runs, `get_c_tol()` returns a copy. `sq` is `std::sqrt`. -/
def updateChampion (sq : Fl K → Fl K) (P : Info) (x f : List (Fl K)) : Run (State K) Unit := do
  alloc
  alloc
  if P.nobj ≠ 1 then pure ()
  else do
    let s ← Run.get
    if s.chX.length = 0 then Run.modify (fun s => { s with chX := x, chF := f })
    else if P.nc = 0 then do
      let a ← Run.lift (Outcome.get f 0)
      let b ← Run.lift (Outcome.get s.chF 0)
      if Fl.lessThanF a b then Run.modify (fun s => { s with chX := x, chF := f }) else pure ()
    else do
      alloc
      let r ← Run.lift (Con.compareFc sq f s.chF P.nec s.tol)
      if r then Run.modify (fun s => { s with chX := x, chF := f }) else pure ()

/-- `population::push_back_impl`, src/population.cpp 569-610. Allocation points: the two copies, and the three
`push_back`s. -/
def pushBackImpl (sq : Fl K → Fl K) (P : Info) (x f : List (Fl K)) : Run (State K) Unit :=
  if x.length ≠ P.nx then Run.throw .invalidArgument
  else if f.length ≠ P.nf then Run.throw .invalidArgument
  else do
    let s ← Run.get
    if s.id.length = 2 ^ 64 - 1 ∨ s.x.length = 2 ^ 64 - 1 then Run.throw .overflowError
    else do
      let newId := s.rng 0
      Run.modify (fun s => { s with rng := fun n => s.rng (n + 1) })
      alloc
      alloc
      let n := s.id.length
      Run.tryCatch
        (do
          alloc
          Run.modify (fun s => { s with id := s.id ++ [newId] })
          alloc
          Run.modify (fun s => { s with x := s.x ++ [x] })
          alloc
          Run.modify (fun s => { s with f := s.f ++ [f] })
          updateChampion sq P x f)
        (fun e => do
          Run.modify (fun s => { s with id := s.id.take n, x := s.x.take n, f := s.f.take n })
          Run.throw e)

/-- `problem::fitness`, src/problem.cpp 353-379: size check of the argument, the user's function (`user` is what
it does), size check of the result. The evaluation counter is modelled in `Verif.Model.Problem`. -/
def probFitness (P : Info) (x : List (Fl K)) (user : Except Exn (List (Fl K))) :
    Outcome (List (Fl K)) :=
  if x.length ≠ P.nx then .throws .invalidArgument
  else match user with
    | .error e => .throws e
    | .ok f => if f.length ≠ P.nf then .throws .invalidArgument else .ok f

/-- `population::set_xf`, src/population.cpp 490-522; the two `reserve`s are allocation points. -/
def setXF (sq : Fl K → Fl K) (P : Info) (i : Nat) (x f : List (Fl K)) : Run (State K) Unit := do
  let s ← Run.get
  if i ≥ s.id.length then Run.throw .invalidArgument
  else if f.length ≠ P.nf then Run.throw .invalidArgument
  else if x.length ≠ P.nx then Run.throw .invalidArgument
  else do
    alloc
    alloc
    updateChampion sq P x f
    let s ← Run.get
    let x' ← Run.lift (Outcome.set s.x i x)
    let f' ← Run.lift (Outcome.set s.f i f)
    Run.modify (fun s => { s with x := x', f := f' })

/-- A call a client can make. `user` is what the user's fitness function does when called. -/
inductive Op (K : Type) where
  /-- `push_back(x)`, src/population.cpp 182-185 and 196-200 -/
  | pushX (x : List (Fl K)) (user : Except Exn (List (Fl K)))
  /-- `push_back(x, f)`, src/population.cpp 217-220 and 232-235 -/
  | pushXF (x f : List (Fl K))
  /-- `set_x(i, x)`, src/population.cpp 539-542 -/
  | setX (i : Nat) (x : List (Fl K)) (user : Except Exn (List (Fl K)))
  /-- `set_xf(i, x, f)`, src/population.cpp 490-522 -/
  | setXF (i : Nat) (x f : List (Fl K))

/-- What a call does. -/
def Op.run (sq : Fl K → Fl K) (P : Info) : Op K → Run (State K) Unit
  | .pushX x user => do
    let f ← Run.lift (probFitness P x user)
    pushBackImpl sq P x f
  | .pushXF x f => pushBackImpl sq P x f
  | .setX i x user => do
    let f ← Run.lift (probFitness P x user)
    Pop.setXF sq P i x f
  | .setXF i x f => Pop.setXF sq P i x f

/-- The pair a successful call inserts. -/
def Op.inserts : Op K → Option (List (Fl K) × List (Fl K))
  | .pushX x (.ok f) => some (x, f)
  | .pushX _ (.error _) => none
  | .pushXF x f => some (x, f)
  | .setX _ x (.ok f) => some (x, f)
  | .setX _ _ (.error _) => none
  | .setXF _ x f => some (x, f)

/-- A client program: calls in sequence, exceptions are caught by the client. Returns the final state and the
list of pairs inserted by successful calls, or nothing after undefined behaviour. -/
def history (sq : Fl K → Fl K) (P : Info) : List (Op K) → State K →
    List (List (Fl K) × List (Fl K)) → Option (State K × List (List (Fl K) × List (Fl K)))
  | [], s, ins => some (s, ins)
  | o :: os, s, ins =>
    match o.run sq P s with
    | (.ok (), s') => history sq P os s' (ins ++ o.inserts.toList)
    | (.throws _, s') => history sq P os s' ins
    | _ => none

/-- A population just constructed with no individuals, src/population.cpp 60. -/
def empty (tol : List (Fl K)) (rng : Nat → Nat) (faults : List Bool) : State K :=
  { id := [], x := [], f := [], chX := [], chF := [], tol := tol, rng := rng, faults := faults }

/-- `population::champion_x`, src/population.cpp 427-438 -/
def championX (P : Info) (s : State K) : Outcome (List (Fl K)) :=
  if P.nobj > 1 then .throws .invalidArgument
  else if P.stochastic then .throws .invalidArgument
  else .ok s.chX

/-- `population::champion_f`, src/population.cpp 455-466 -/
def championF (P : Info) (s : State K) : Outcome (List (Fl K)) :=
  if P.nobj > 1 then .throws .invalidArgument
  else if P.stochastic then .throws .invalidArgument
  else .ok s.chF

/-- `operator<` on `std::vector<double>`: lexicographic, with the C++ `<` on doubles. -/
def vecLt : List (Fl K) → List (Fl K) → Bool
  | [], [] => false
  | [], _ :: _ => true
  | _ :: _, [] => false
  | a :: as, b :: bs => if Fl.lt a b then true else if Fl.lt b a then false else vecLt as bs

/-- `std::min_element`: index of the first element that no later element is less than, as in the standard's
reference loop. `best`, `bi` are the current smallest and its index, `i` the next index. -/
def minElement : List (List (Fl K)) → List (Fl K) → Nat → Nat → Nat
  | [], _, bi, _ => bi
  | v :: vs, best, bi, i => if vecLt v best then minElement vs v i (i + 1) else minElement vs best bi (i + 1)

/-- `std::max_element`. -/
def maxElement : List (List (Fl K)) → List (Fl K) → Nat → Nat → Nat
  | [], _, bi, _ => bi
  | v :: vs, best, bi, i => if vecLt best v then maxElement vs v i (i + 1) else maxElement vs best bi (i + 1)

/-- `population::best_idx(tol)`, src/population.cpp 287-311. The overflow check on the iterator difference
(never true for populations that fit in memory) is kept. -/
def bestIdx (srt : (Nat → Nat → Bool) → List Nat → List Nat) (sq : Fl K → Fl K) (P : Info)
    (fs : List (List (Fl K))) (tol : List (Fl K)) : Outcome Nat :=
  match fs with
  | [] => .throws .invalidArgument
  | f0 :: rest =>
    if P.nobj > 1 then .throws .invalidArgument
    else if P.nc > 0 then do
      let l ← Con.sortPopulationCon srt sq fs P.nec tol
      Outcome.get l 0
    else if fs.length - 1 > 2 ^ 63 - 1 then .throws .overflowError
    else .ok (minElement rest f0 0 1)

/-- `population::worst_idx(tol)`, src/population.cpp 371-396. -/
def worstIdx (srt : (Nat → Nat → Bool) → List Nat → List Nat) (sq : Fl K → Fl K) (P : Info)
    (fs : List (List (Fl K))) (tol : List (Fl K)) : Outcome Nat :=
  match fs with
  | [] => .throws .invalidArgument
  | f0 :: rest =>
    if P.nobj > 1 then .throws .invalidArgument
    else if P.nc > 0 then do
      let l ← Con.sortPopulationCon srt sq fs P.nec tol
      Outcome.get l (l.length - 1)
    else if fs.length - 1 > 2 ^ 63 - 1 then .throws .overflowError
    else .ok (maxElement rest f0 0 1)

/-- `island::set_individuals`, src/island.cpp 1060-1083: the population's individuals are replaced by a group of
migrants-merged individuals. The champion is not touched. -/
def setIndividuals (ids : List Nat) (xs fs : List (List (Fl K))) (s : State K) : State K :=
  { s with id := ids, x := xs, f := fs }

/-- `problem::set_c_tol` on the problem obtained from `population::get_problem()`
(include/pagmo/population.hpp 268, src/problem.cpp 620-638). -/
def setTol (P : Info) (tol : List (Fl K)) : Run (State K) Unit := do
  let t ← Run.lift (Con.setCTol P.nc tol)
  Run.modify (fun s => { s with tol := t })

end Verif.Pop
