import Verif.Model.Problem

/-!
# Model of the bookkeeping of src/archipelago.cpp and include/pagmo/archipelago.hpp

Archipelagos own their islands through pointers, keep a map from island pointers to indices, a database of migrants, a
migration log and a topology; every island points back to its archipelago. The world below holds all archipelagos and all
islands that exist. Addresses of islands are chosen by the allocator: any address that is not in use, possibly one that
was used before.
Simplifications: an island is its value (algorithm, population, policies: type `P`) and its `archi_ptr`. Evolutions are
not modelled here (the member functions below first wait for them, except `push_back` and the copy constructor, see
`Verif.Migr` for evolutions): no memory errors; copying an island does not throw.
-/

set_option autoImplicit false

namespace Verif.Archi

open Verif Prob

variable {P G L T : Type}

/-- An island on the heap; `archi_ptr` is `island_data::archi_ptr`, include/pagmo/island.hpp. -/
structure Cell (P : Type) where
  val : P
  archiPtr : Nat

/-- The members of an archipelago, include/pagmo/archipelago.hpp 724-749. `topo = none`: moved from. `opts` stands for
`m_migr_type` and `m_migr_handling`. -/
structure Archi (G L T : Type) where
  islands : List Nat
  idx : List (Nat × Nat)
  migrants : List G
  log : List L
  topo : Option T
  opts : Nat

/-- All islands and archipelagos that exist. -/
structure World (P G L T : Type) where
  isl : Nat → Option (Cell P)
  archi : Nat → Option (Archi G L T)

/-- The empty group of individuals, `topology::push_back()` (user code) and the default topology. -/
structure Env (G T : Type) where
  noMigrants : G
  push : T → User T
  unconnected : T

/-- A function changed in one place. -/
def upd {β : Type} (f : Nat → β) (k : Nat) (v : β) : Nat → β := fun j => if j = k then v else f j

/-- `std::unordered_map::find`. -/
def find (m : List (Nat × Nat)) (p : Nat) : Option Nat := (m.find? (fun e => e.1 == p)).map (fun e => e.2)

/-- `std::unordered_map::emplace`: keeps an existing entry. -/
def emplace (m : List (Nat × Nat)) (p i : Nat) : List (Nat × Nat) :=
  match find m p with
  | some _ => m
  | none => m ++ [(p, i)]

/-- Setting `archi_ptr` of the islands at `ps`, src/archipelago.cpp 140-142. -/
def redirect (isl : Nat → Option (Cell P)) (a : Nat) (ps : List Nat) : Nat → Option (Cell P) :=
  fun p => if p ∈ ps then (isl p).map (fun c => { c with archiPtr := a }) else isl p

/-- Destroying the islands at `ps`. -/
def free (isl : Nat → Option (Cell P)) (ps : List Nat) : Nat → Option (Cell P) :=
  fun p => if p ∈ ps then none else isl p

/-- `archipelago(t)`, include/pagmo/archipelago.hpp 255-260; the default constructor, src/archipelago.cpp 81-85, with the
default topology. -/
def fresh (t : T) : Archi G L T := ⟨[], [], [], [], some t, 0⟩

/-- `push_back_impl`, src/archipelago.cpp 467-530, with the island `v` at the address `p`. -/
def pushBack (env : Env G T) (w : World P G L T) (a p : Nat) (v : P) : Outcome Unit × World P G L T :=
  match w.archi a with
  | none => (.ub, w)
  | some A =>
    let A1 := { A with idx := emplace A.idx p A.islands.length, migrants := A.migrants ++ [env.noMigrants],
                       islands := A.islands ++ [p] }
    let isl := upd w.isl p (some ⟨v, a⟩)
    match A.topo with
    | none => (.ub, w)
    | some t =>
      match env.push t with
      | .ok t' => (.ok (), ⟨isl, upd w.archi a (some { A1 with topo := some t' })⟩)
      | .error e => (.throws e, ⟨isl, upd w.archi a (some A1)⟩)

/-- The loop of the copy constructor, src/archipelago.cpp 99-103: the islands at `src` are copied to the addresses `ps`
chosen by the allocator. `none`: the allocator cannot return these addresses. -/
def copyLoop (env : Env G T) (dst : Nat) : List Nat → List Nat → World P G L T → Option (Outcome Unit × World P G L T)
  | [], [], w => some (.ok (), w)
  | q :: qs, p :: ps, w =>
    match w.isl p with
    | some _ => none
    | none =>
      match w.isl q with
      | none => some (.ub, w)
      | some c =>
        match pushBack env w dst p c.val with
        | (.ok (), w) => copyLoop env dst qs ps w
        | (o, w) => some (o, w)
  | _, _, _ => none

/-- Copy constructor, src/archipelago.cpp 97-117, `dst` being a new archipelago. Copying a moved-from topology
dereferences a null pointer. -/
def copyCtor (env : Env G T) (w : World P G L T) (dst src : Nat) (ps : List Nat) : Option (Outcome Unit × World P G L T) :=
  match w.archi src with
  | none => some (.ub, w)
  | some S =>
    match S.topo with
    | none => some (.ub, w)
    | some _ =>
      match copyLoop env dst S.islands ps { w with archi := upd w.archi dst (some (fresh env.unconnected)) } with
      | none => none
      | some (.ok (), w) =>
        match w.archi dst with
        | none => some (.ub, w)
        | some D =>
          some (.ok (), { w with archi := upd w.archi dst (some { D with
            migrants := S.migrants, log := S.log, topo := S.topo, opts := S.opts }) })
      | some (o, w) => some (o, w)

/-- Transfer of the state of `src` to `dst`, src/archipelago.cpp 138-165 and 208-231; `old` are the islands `dst`
had. -/
def moveFields (w : World P G L T) (dst src : Nat) (S : Archi G L T) (old : List Nat) : World P G L T :=
  ⟨redirect (free w.isl old) dst S.islands,
   upd (upd w.archi dst (some S)) src (some { S with islands := [], idx := [], migrants := [], log := [], topo := none })⟩

/-- Move constructor, src/archipelago.cpp 127-166. -/
def moveCtor (w : World P G L T) (dst src : Nat) : Outcome Unit × World P G L T :=
  match w.archi src with
  | none => (.ub, w)
  | some S => (.ok (), moveFields w dst src S [])

/-- Move assignment, src/archipelago.cpp 196-235. -/
def moveAssign (w : World P G L T) (dst src : Nat) : Outcome Unit × World P G L T :=
  match w.archi dst, w.archi src with
  | some D, some S => if dst = src then (.ok (), w) else (.ok (), moveFields w dst src S D.islands)
  | _, _ => (.ub, w)

/-- Destructor, src/archipelago.cpp 242-260. -/
def destroy (w : World P G L T) (a : Nat) : Outcome Unit × World P G L T :=
  match w.archi a with
  | none => (.ub, w)
  | some A => (.ok (), ⟨free w.isl A.islands, upd w.archi a none⟩)

/-- Copy assignment, src/archipelago.cpp 178-184; `tmp` is the temporary archipelago. -/
def copyAssign (env : Env G T) (w : World P G L T) (dst src tmp : Nat) (ps : List Nat) : Option (Outcome Unit × World P G L T) :=
  match w.archi dst, w.archi src with
  | some _, some _ =>
    if dst = src then some (.ok (), w)
    else
      match copyCtor env w tmp src ps with
      | some (.ok (), w) =>
        match moveAssign w dst tmp with
        | (.ok (), w) => some (destroy w tmp)
        | r => some r
      | r => r
  | _, _ => some (.ub, w)

/-- An archive written by `save`, include/pagmo/archipelago.hpp 665-671. Reading a part of it may throw, except the
islands (simplification: what is left in `m_islands` in that case is up to Boost.Serialization). -/
structure Archive (P G L T : Type) where
  islands : List P
  migrants : User (List G)
  log : User (List L)
  topo : User T
  opts : User Nat

/-- The islands read from the archive, at the addresses `ps`. -/
def loadIslands (a : Nat) : List P → List Nat → (Nat → Option (Cell P)) → Option (Nat → Option (Cell P))
  | [], [], isl => some isl
  | v :: vs, p :: ps, isl =>
    match isl p with
    | some _ => none
    | none => loadIslands a vs ps (upd isl p (some ⟨v, a⟩))
  | _, _, _ => none

/-- The loop of `load`, include/pagmo/archipelago.hpp 686-691. -/
def remap (ps : List Nat) : List (Nat × Nat) := ps.zipIdx.foldl (fun m e => emplace m e.1 e.2) []

/-- The part of `load` in the `try` block after the islands were read, include/pagmo/archipelago.hpp 694-712. -/
def loadRest (ar : Archive P G L T) (ps : List Nat) : User (Archi G L T) := do
  let m ← ar.migrants
  let l ← ar.log
  let t ← ar.topo
  let o ← ar.opts
  .ok ⟨ps, remap ps, m, l, some t, o⟩

/-- `load`, include/pagmo/archipelago.hpp 674-718. If reading throws, `*this = archipelago{}` (717). -/
def load (env : Env G T) (w : World P G L T) (a : Nat) (ar : Archive P G L T) (ps : List Nat) : Option (Outcome Unit × World P G L T) :=
  match w.archi a with
  | none => some (.ub, w)
  | some A =>
    match loadIslands a ar.islands ps (free w.isl A.islands) with
    | none => none
    | some isl =>
      match loadRest ar ps with
      | .ok B => some (.ok (), ⟨isl, upd w.archi a (some B)⟩)
      | .error e => some (.throws e, ⟨free isl ps, upd w.archi a (some (fresh env.unconnected))⟩)

/-- Something the program does; the addresses are those the allocator returns. -/
inductive Op (P G L T : Type) where
  /-- constructor from a topology -/
  | new (a : Nat) (t : T)
  | push (a p : Nat) (v : P)
  | copy (dst src : Nat) (ps : List Nat)
  | move (dst src : Nat)
  | copyAssign (dst src tmp : Nat) (ps : List Nat)
  | moveAssign (dst src : Nat)
  | setTopology (a : Nat) (t : T)
  | setMigrantsDb (a : Nat) (db : List G)
  | load (a : Nat) (ar : Archive P G L T) (ps : List Nat)
  /-- `archi[i]` is used to change the island -/
  | write (a i : Nat) (v : P)
  | destroy (a : Nat)

/-- `archi[i]`, src/archipelago.cpp 285-314: the address of the island. -/
def at_ (A : Archi G L T) (i : Nat) : Outcome Nat :=
  if i ≥ A.islands.length then .throws .outOfRange
  else Outcome.get A.islands i

/-- `get_island_idx`, src/archipelago.cpp 535-544. -/
def getIslandIdx (A : Archi G L T) (p : Nat) : Outcome Nat :=
  match find A.idx p with
  | none => .throws .invalidArgument
  | some i => .ok i

/-- Changing the island at index `i` through the reference `archi[i]`. -/
def write (w : World P G L T) (a i : Nat) (v : P) : Outcome Unit × World P G L T :=
  match w.archi a with
  | none => (.ub, w)
  | some A =>
    match at_ A i with
    | .ok p =>
      match w.isl p with
      | none => (.ub, w)
      | some c => (.ok (), { w with isl := upd w.isl p (some { c with val := v }) })
    | .throws e => (.throws e, w)
    | _ => (.ub, w)

/-- A member is replaced; src/archipelago.cpp 611-612 (`set_migrants_db`), 738-745 (`set_topology`). -/
def change (w : World P G L T) (a : Nat) (f : Archi G L T → Archi G L T) : Outcome Unit × World P G L T :=
  match w.archi a with
  | none => (.ub, w)
  | some A => (.ok (), { w with archi := upd w.archi a (some (f A)) })

/-- Execution of one operation. `none`: an address or name of a new object is in use, which no allocator returns. -/
def exec (env : Env G T) (w : World P G L T) : Op P G L T → Option (Outcome Unit × World P G L T)
  | .new a t =>
    match w.archi a with
    | some _ => none
    | none => some (.ok (), { w with archi := upd w.archi a (some (fresh t)) })
  | .push a p v =>
    match w.isl p with
    | some _ => none
    | none => some (pushBack env w a p v)
  | .copy dst src ps =>
    match w.archi dst with
    | some _ => none
    | none => copyCtor env w dst src ps
  | .move dst src =>
    match w.archi dst with
    | some _ => none
    | none => some (moveCtor w dst src)
  | .copyAssign dst src tmp ps =>
    match w.archi tmp with
    | some _ => none
    | none => copyAssign env w dst src tmp ps
  | .moveAssign dst src => some (moveAssign w dst src)
  | .setTopology a t => some (change w a (fun A => { A with topo := some t }))
  | .setMigrantsDb a db => some (change w a (fun A => { A with migrants := db }))
  | .load a ar ps => load env w a ar ps
  | .write a i v => some (write w a i v)
  | .destroy a => some (destroy w a)

/-- A program: the outcome of every operation and the final world. -/
def run (env : Env G T) (w : World P G L T) : List (Op P G L T) → Option (List (Outcome Unit) × World P G L T)
  | [] => some ([], w)
  | op :: ops =>
    match exec env w op with
    | none => none
    | some (o, w) =>
      match run env w ops with
      | none => none
      | some (os, w) => some (o :: os, w)

/-- Nothing exists. -/
def nothing : World P G L T := ⟨fun _ => none, fun _ => none⟩

/-! ## `status` and `wait_check` -/

/-- `evolve_status`. -/
inductive Status where
  | idle
  | busy
  | idleError
  | busyError
  deriving DecidableEq

/-- The counters of `status`, src/archipelago.cpp 395. -/
structure Counts where
  idle : Nat
  busy : Nat
  idleError : Nat
  busyError : Nat

/-- One iteration, src/archipelago.cpp 397-410. -/
def countStep (n : Counts) : Status → Counts
  | .idle => { n with idle := n.idle + 1 }
  | .busy => { n with busy := n.busy + 1 }
  | .idleError => { n with idleError := n.idleError + 1 }
  | .busyError => { n with busyError := n.busyError + 1 }

/-- `status`, src/archipelago.cpp 393-433, given what the islands' `status()` returned. -/
def status (ss : List Status) : Status :=
  let n := ss.foldl countStep ⟨0, 0, 0, 0⟩
  if n.busyError ≠ 0 then .busyError
  else if n.idleError ≠ 0 then (if n.busy ≠ 0 then .busyError else .idleError)
  else if n.idle = ss.length then .idle else .busy

/-- `wait_check`, src/archipelago.cpp 359-371: the list is what `wait_check()` of the islands `i`, `i + 1`, …
throws (if anything); the result is what is thrown and the list of the islands whose `wait_check()` was called. -/
def waitCheckFrom (i : Nat) : List (Option Exn) → Option Exn × List Nat
  | [] => (none, [])
  | none :: l =>
    let r := waitCheckFrom (i + 1) l
    (r.1, i :: r.2)
  | some e :: l => (some e, i :: List.range' (i + 1) l.length)

def waitCheck (rs : List (Option Exn)) : Option Exn × List Nat := waitCheckFrom 0 rs

end Verif.Archi
