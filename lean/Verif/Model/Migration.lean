import Verif.Base.Outcome

/-!
# Model of migration: the task of `island::evolve`, src/island.cpp 438-644, and the migrants database of the archipelago,
src/archipelago.cpp 560-711

An interleaving transition system. Every island of the archipelago is a thread that runs its evolution tasks; the user
may at any moment change the migration type, the migrant handling and the whole database. The database is protected by a
mutex; taking the mutex, the range check, reading, clearing and writing each of the three components of an entry and
releasing the mutex are separate steps. What the topology, the policies, the evolution and the random generator return
is arbitrary (it comes with the step); all of them but the random generator may throw, which ends the task.
Simplifications: appending to the migration log (src/archipelago.cpp 644-655) is one step; entries have no timestamp; the
individuals returned by the replacement policy are triples (the wrapper `r_policy` checks that the three vectors have
the same size, see C36); populations are not modelled.
-/

set_option autoImplicit false

namespace Verif.Migr

open Verif

variable {X : Type}

/-- `individuals_group_t`: IDs, decision vectors, fitness vectors. -/
structure Grp (X : Type) where
  ids : List Nat
  xs : List X
  fs : List X
  deriving DecidableEq

/-- An empty group. -/
def Grp.none : Grp X := ⟨[], [], []⟩

/-- Appending to each of the vectors, src/island.cpp 569-577. -/
def Grp.append (a b : Grp X) : Grp X := ⟨a.ids ++ b.ids, a.xs ++ b.xs, a.fs ++ b.fs⟩

/-- `archipelago::migration_entry_t` without the timestamp. -/
structure Entry (X : Type) where
  id : Nat
  x : X
  f : X
  src : Nat
  dst : Nat
  deriving DecidableEq

/-- What happens to the group that is being fetched. -/
inductive Cont (X : Type) where
  /-- point-to-point -/
  | p2p
  /-- broadcast: connections, position, groups so far (`split_migrants`) -/
  | cast (cs : List Nat) (j : Nat) (acc : List (Nat × Grp X))

/-- An access to the entry `src` of the database, `evict`: with `extract_migrants`. -/
structure Fetch (X : Type) where
  src : Nat
  evict : Bool
  cont : Cont X

/-- Position of an island; `k` iterations are left including the current one. -/
inductive Pc (X : Type) where
  | idle
  /-- 453: about to query the topology -/
  | top (k : Nat)
  /-- 473: about to read the migration type -/
  | mtype (k : Nat) (cs : List Nat)
  /-- 474: about to read the migrant handling -/
  | handling (k : Nat) (cs : List Nat) (p2p : Bool)
  /-- 492-500: about to choose an island -/
  | pick (k : Nat) (cs : List Nat) (evict : Bool)
  /-- 556-581: loop of the broadcast -/
  | cast (k : Nat) (cs : List Nat) (evict : Bool) (j : Nat) (acc : List (Nat × Grp X))
  /-- archipelago.cpp 660, 684: about to lock -/
  | fetchLock (k : Nat) (f : Fetch X)
  | fetchCheck (k : Nat) (f : Fetch X)
  | fetch0 (k : Nat) (f : Fetch X)
  | fetch1 (k : Nat) (f : Fetch X) (ids : List Nat)
  | fetch2 (k : Nat) (f : Fetch X) (ids : List Nat) (xs : List X)
  /-- archipelago.cpp 673-675: about to clear the components -/
  | clear0 (k : Nat) (f : Fetch X) (g : Grp X)
  | clear1 (k : Nat) (f : Fetch X) (g : Grp X)
  | clear2 (k : Nat) (f : Fetch X) (g : Grp X)
  | fetchUnlock (k : Nat) (f : Fetch X) (g : Grp X)
  /-- 513-516, 586-589: about to run the replacement policy -/
  | replace (k : Nat) (acc : List (Nat × Grp X))
  /-- 519, 592: about to set the individuals -/
  | setInds (k : Nat) (acc : List (Nat × Grp X)) (news : List (Nat × X × X))
  /-- 540, 618: about to append to the migration log -/
  | append (k : Nat) (acc : List (Nat × Grp X)) (news : List (Nat × X × X))
  /-- 624 -/
  | evolve (k : Nat)
  /-- 636-638: about to run the selection policy -/
  | select (k : Nat)
  /-- archipelago.cpp 699: about to lock -/
  | putLock (k : Nat) (g : Grp X)
  | putCheck (k : Nat) (g : Grp X)
  | put0 (k : Nat) (g : Grp X)
  | put1 (k : Nat) (g : Grp X)
  | put2 (k : Nat) (g : Grp X)
  | putUnlock (k : Nat) (g : Grp X)

/-- What is observed, in order. Accesses to the database are recorded when the mutex is released. -/
inductive Obs (X : Type) where
  /-- `evolve(n)` of island `i` started -/
  | start (i n : Nat)
  /-- the topology returned the connections of island `i` -/
  | conns (i : Nat) (cs : List Nat)
  /-- island `i` fetched the entry `src` -/
  | fetched (i src : Nat) (evict : Bool) (g : Grp X)
  /-- the entry `src` does not exist -/
  | refused (i src : Nat)
  /-- the replacement policy of island `i` was given the migrants `g` and returned `news` -/
  | replaced (i : Nat) (g : Grp X) (news : List (Nat × X × X))
  /-- the individuals of island `i` were set -/
  | inds (i : Nat) (news : List (Nat × X × X))
  /-- entries were appended to the migration log -/
  | logged (i : Nat) (es : List (Entry X))
  /-- the selection policy of island `i` returned `g` -/
  | selected (i : Nat) (g : Grp X)
  /-- `g` was placed in the entry of island `i` -/
  | put (i : Nat) (g : Grp X)
  /-- the task of island `i` ended, by an exception or normally -/
  | ended (i : Nat) (e : Option Exn)
  /-- the user replaced the database -/
  | setDb (db : List (Grp X))
  deriving DecidableEq

/-- What comes from outside at a step. -/
inductive Input (X : Type) where
  | none
  | conns (cs : List Nat)
  /-- the index chosen, and whether migration happens (`draw < weight`) -/
  | dice (j : Nat) (accept : Bool)
  | news (l : List (Nat × X × X))
  | group (g : Grp X)
  | throws (e : Exn)

structure State (X : Type) where
  db : List (Grp X)
  owner : Option Nat
  p2p : Bool
  evict : Bool
  islands : List (Pc X)
  mlog : List (Entry X)
  log : List (Obs X)

/-- An archipelago with the given database and `n` islands. -/
def init (db : List (Grp X)) (n : Nat) : State X :=
  { db := db, owner := .none, p2p := true, evict := false, islands := List.replicate n .idle, mlog := [], log := [] }

/-- Island `i` moves to `pc`. -/
def goto (s : State X) (i : Nat) (pc : Pc X) : State X := { s with islands := s.islands.set i pc }

/-- Island `i` moves to `pc` and `o` is observed. -/
def say (s : State X) (i : Nat) (pc : Pc X) (o : Obs X) : State X :=
  { s with islands := s.islands.set i pc, log := s.log ++ [o] }

/-- The entry `src` of the database is changed. -/
def setEntry (s : State X) (src : Nat) (f : Grp X → Grp X) : State X :=
  match s.db[src]? with
  | .none => s
  | some g => { s with db := s.db.set src (f g) }

/-- The entry `src`. -/
def entry (s : State X) (src : Nat) : Grp X := s.db.getD src .none

/-- `new_inds_map.find(id)`, src/island.cpp 526, 532 and 599, 608: in the map built by `group_to_map` (479-490) a later
individual with the same ID replaces an earlier one. -/
def findNew (news : List (Nat × X × X)) (id : Nat) : Option (X × X) :=
  (news.reverse.find? (fun e => e.1 == id)).map (fun e => e.2)

/-- One iteration of the loops that build the migration log, src/island.cpp 531-538, 607-614. -/
def logStep (news : List (Nat × X × X)) (src dst : Nat) (mlog : List (Entry X)) (id : Nat) : List (Entry X) :=
  match findNew news id with
  | .none => mlog
  | some xf => mlog ++ [⟨id, xf.1, xf.2, src, dst⟩]

/-- The loop over `split_migrants`, src/island.cpp 604-615; for a point-to-point migration there is one source
(529-538). -/
def buildLog (news : List (Nat × X × X)) (dst : Nat) (acc : List (Nat × Grp X)) : List (Entry X) :=
  acc.foldl (fun m p => p.2.ids.foldl (logStep news p.1 dst) m) []

/-- All migrants, src/island.cpp 569-577. -/
def allMigrants (acc : List (Nat × Grp X)) : Grp X := acc.foldl (fun m p => m.append p.2) .none

/-- The end of an iteration. -/
def nextIter (s : State X) (i k : Nat) (o : Obs X) : State X := say s i (.top (k - 1)) o

/-- What follows after a group was fetched. -/
def resume (k : Nat) (f : Fetch X) (g : Grp X) : Pc X :=
  match f.cont with
  | .p2p => .replace k [(f.src, g)]
  | .cast cs j acc => .cast k cs f.evict (j + 1) (acc ++ [(f.src, g)])

/-- One step of island `i` with the input `inp`; `none` if it cannot be taken. -/
def step (s : State X) (i : Nat) (inp : Input X) : Option (State X) :=
  match s.islands[i]? with
  | .none => .none
  | some pc =>
    match pc, inp with
    | .top 0, .none => some (say s i .idle (.ended i .none))
    | .top (k + 1), .conns cs => some (say s i (if cs = [] then .evolve (k + 1) else .mtype (k + 1) cs) (.conns i cs))
    | .top (_ + 1), .throws e => some (say s i .idle (.ended i (some e)))
    | .mtype k cs, .none => some (goto s i (.handling k cs s.p2p))
    | .handling k cs p2p, .none => some (goto s i (if p2p then .pick k cs s.evict else .cast k cs s.evict 0 []))
    | .pick k cs ev, .dice j acc =>
      match cs[j]? with
      | .none => .none
      | some src => some (goto s i (if acc then .fetchLock k ⟨src, ev, .p2p⟩ else .evolve k))
    | .cast k cs ev j acc, .dice _ yes =>
      match cs[j]? with
      | .none => .none
      | some src => some (goto s i (if yes then .fetchLock k ⟨src, ev, .cast cs j acc⟩ else .cast k cs ev (j + 1) acc))
    | .cast k cs _ j acc, .none => if j ≥ cs.length then some (goto s i (.replace k acc)) else .none
    | .fetchLock k f, .none => if s.owner = .none then some (goto { s with owner := some i } i (.fetchCheck k f)) else .none
    | .fetchCheck k f, .none =>
      if f.src ≥ s.db.length then
        some { s with owner := .none, islands := s.islands.set i .idle, log := s.log ++ [.refused i f.src, .ended i (some .outOfRange)] }
      else some (goto s i (.fetch0 k f))
    | .fetch0 k f, .none => some (goto s i (.fetch1 k f (entry s f.src).ids))
    | .fetch1 k f ids, .none => some (goto s i (.fetch2 k f ids (entry s f.src).xs))
    | .fetch2 k f ids xs, .none =>
      some (goto s i (if f.evict then .clear0 k f ⟨ids, xs, (entry s f.src).fs⟩ else .fetchUnlock k f ⟨ids, xs, (entry s f.src).fs⟩))
    | .clear0 k f g, .none => some (goto (setEntry s f.src (fun e => { e with ids := [] })) i (.clear1 k f g))
    | .clear1 k f g, .none => some (goto (setEntry s f.src (fun e => { e with xs := [] })) i (.clear2 k f g))
    | .clear2 k f g, .none => some (goto (setEntry s f.src (fun e => { e with fs := [] })) i (.fetchUnlock k f g))
    | .fetchUnlock k f g, .none => some (say { s with owner := .none } i (resume k f g) (.fetched i f.src f.evict g))
    | .replace k acc, .news l => some (say s i (.setInds k acc l) (.replaced i (allMigrants acc) l))
    | .replace _ _, .throws e => some (say s i .idle (.ended i (some e)))
    | .setInds k acc l, .none => some (say s i (.append k acc l) (.inds i l))
    | .setInds _ _ _, .throws e => some (say s i .idle (.ended i (some e)))
    | .append k acc l, .none =>
      some (say { s with mlog := s.mlog ++ buildLog l i acc } i (.evolve k) (.logged i (buildLog l i acc)))
    | .evolve k, .none => some (goto s i (.select k))
    | .evolve _, .throws e => some (say s i .idle (.ended i (some e)))
    | .select k, .group g => some (say s i (.putLock k g) (.selected i g))
    | .select _, .throws e => some (say s i .idle (.ended i (some e)))
    | .putLock k g, .none => if s.owner = .none then some (goto { s with owner := some i } i (.putCheck k g)) else .none
    | .putCheck k g, .none =>
      if i ≥ s.db.length then
        some { s with owner := .none, islands := s.islands.set i .idle, log := s.log ++ [.refused i i, .ended i (some .outOfRange)] }
      else some (goto s i (.put0 k g))
    | .put0 k g, .none => some (goto (setEntry s i (fun e => { e with ids := g.ids })) i (.put1 k g))
    | .put1 k g, .none => some (goto (setEntry s i (fun e => { e with xs := g.xs })) i (.put2 k g))
    | .put2 k g, .none => some (goto (setEntry s i (fun e => { e with fs := g.fs })) i (.putUnlock k g))
    | .putUnlock k g, .none => some (nextIter { s with owner := .none } i k (.put i g))
    | _, _ => .none

/-- Something happens. -/
inductive Ev (X : Type) where
  /-- the next task of island `i` starts: `evolve(n)` -/
  | start (i n : Nat)
  | step (i : Nat) (inp : Input X)
  | setType (p2p : Bool)
  | setHandling (evict : Bool)
  /-- archipelago.cpp 608-612 -/
  | setDb (db : List (Grp X))

/-- One event. -/
def next (s : State X) : Ev X → Option (State X)
  | .start i n =>
    match s.islands[i]? with
    | some .idle => some (say s i (.top n) (.start i n))
    | _ => .none
  | .step i inp => step s i inp
  | .setType b => some { s with p2p := b }
  | .setHandling b => some { s with evict := b }
  | .setDb db => if s.owner = .none then some { s with db := db, log := s.log ++ [.setDb db] } else .none

/-- An execution. -/
def run (s : State X) : List (Ev X) → Option (State X)
  | [] => some s
  | e :: es =>
    match next s e with
    | .none => .none
    | some s => run s es

end Verif.Migr
