import Verif.Base.Outcome

/-!
# Model of the serialization functions

include/pagmo/s11n.hpp, include/pagmo/detail/s11n_wrappers.hpp 40-82, the `save`, `load` and `serialize` members of the
classes of pagmo, and what they use of Boost.Serialization.

An archive is a list of tokens. Loading works in place on an object that already exists, as in `ar >> obj`, and it may
fail (the archive ends, or holds something else): Boost throws an exception, and the object stays as far as it was
loaded. Simplifications: primitive values (numbers, strings, vectors of numbers, random engines) are written as given
codecs, object tracking and class versions (apart from that of `thread_island`) are left out, and a class that has not
been registered with Boost is not modelled.
-/

set_option autoImplicit false

namespace Verif.S11n

/-- One item of an archive. -/
inductive Tok where
  | flag (b : Bool)
  | idx (n : Nat)
  | str (s : String)
  | raw (n : Nat)
  deriving DecidableEq, Repr

/-- What loading does: the object and what is left of the archive, or an exception and the object as it was left. -/
inductive Res (α : Type) where
  | ok (a : α) (rest : List Tok)
  | fail (a : α)
  deriving DecidableEq

/-- A type that can be saved and loaded (`ar << a`, `ar >> a`). -/
structure Codec (α : Type) where
  save : α → List Tok
  /-- from the object loaded into and the archive -/
  load : α → List Tok → Res α

variable {α β D P I T : Type}

/-- A primitive value: one token. -/
def Codec.prim (enc : α → Tok) (dec : Tok → Option α) : Codec α where
  save a := [enc a]
  load o ts :=
    match ts with
    | [] => .fail o
    | t :: r =>
      match dec t with
      | some a => .ok a r
      | none => .fail o

/-- `bool` -/
def boolC : Codec Bool := Codec.prim .flag fun t => match t with | .flag b => some b | _ => none

/-- sizes and indices -/
def natC : Codec Nat := Codec.prim .idx fun t => match t with | .idx n => some n | _ => none

/-- `std::string` -/
def strC : Codec String := Codec.prim .str fun t => match t with | .str s => some s | _ => none

/-- One argument of `archive`, `to_archive`, `from_archive`: a data member, loaded in place. -/
def Codec.field (get : α → β) (set : β → α → α) (c : Codec β) : Codec α where
  save a := c.save (get a)
  load o ts :=
    match c.load (get o) ts with
    | .ok b r => .ok (set b o) r
    | .fail b => .fail (set b o)

/-- The variadic `archive`, `to_archive` and `from_archive`, s11n_wrappers.hpp 40-82: one argument after the other. -/
def Codec.seq : List (Codec α) → Codec α
  | [] => ⟨fun _ => [], fun o ts => .ok o ts⟩
  | c :: cs =>
    ⟨fun a => c.save a ++ (Codec.seq cs).save a,
     fun o ts =>
      match c.load o ts with
      | .ok a r => (Codec.seq cs).load a r
      | .fail a => .fail a⟩

/-- `try { … } catch (...) { *this = T{}; throw; }`, as in the `load` of the wrapper classes. -/
def Codec.guarded (dflt : α) (c : Codec α) : Codec α where
  save := c.save
  load o ts :=
    match c.load o ts with
    | .ok a r => .ok a r
    | .fail _ => .fail dflt

/-- The loop of the loading of a `std::vector`: the elements are loaded in place, in order. -/
def loadEach (c : Codec α) : List α → List Tok → Res (List α)
  | [], ts => .ok [] ts
  | o :: os, ts =>
    match c.load o ts with
    | .fail a => .fail (a :: os)
    | .ok a r =>
      match loadEach c os r with
      | .ok l r' => .ok (a :: l) r'
      | .fail l => .fail (a :: l)

/-- `std::vector`: the size and the elements. Loading resizes the vector, then loads the elements in place
(boost/serialization/vector.hpp, `collection_load_impl`). -/
def Codec.vec (dflt : α) (c : Codec α) : Codec (List α) where
  save l := .idx l.length :: l.flatMap c.save
  load o ts :=
    match ts with
    | .idx n :: r => loadEach c (o.take n ++ List.replicate (n - o.length) dflt) r
    | _ => .fail o

/-- `boost::optional`: a flag, and the value. Loading a missing value resets the target. A value is loaded into a new
object. -/
def Codec.opt (dflt : α) (c : Codec α) : Codec (Option α) where
  save a :=
    match a with
    | none => [.flag false]
    | some x => .flag true :: c.save x
  load o ts :=
    match ts with
    | .flag false :: r => .ok none r
    | .flag true :: r =>
      match c.load dflt r with
      | .ok x r' => .ok (some x) r'
      | .fail _ => .fail o
    | _ => .fail o

/-- The registered user-defined classes: a key, the type, a default-constructed object and the serialization of each. -/
structure Registry where
  Ty : String → Type
  dflt : (k : String) → Ty k
  cod : (k : String) → Codec (Ty k)

/-- An object of a registered class, as held by `std::unique_ptr<prob_inner_base>` and the like. -/
def Registry.Obj (R : Registry) : Type := Σ k : String, R.Ty k

/-- A pointer to a base class: the key of the class, then the object (problem.hpp 873, algorithm.hpp 365 and the like:
`detail::archive(ar, base_object<…>(*this), m_value)`, the base classes have no data). Loading makes a
default-constructed object of that class, loads into it, and then sets the pointer. -/
def Registry.ptr (R : Registry) : Codec R.Obj where
  save p := .str p.1 :: (R.cod p.1).save p.2
  load o ts :=
    match ts with
    | .str k :: r =>
      match (R.cod k).load (R.dflt k) r with
      | .ok a r' => .ok ⟨k, a⟩ r'
      | .fail _ => .fail o
    | _ => .fail o

/-! ## The wrapper classes -/

/-- `problem`, data members problem.hpp 1651-1683. `D` stands for the types of the data members, `P` for the pointer to
the user-defined problem. -/
structure ProblemO (P D : Type) where
  ptr : P
  fevals : D
  gevals : D
  hevals : D
  lb : D
  ub : D
  nobj : D
  nec : D
  nic : D
  nix : D
  cTol : D
  hasBatch : D
  hasGrad : D
  hasGradSp : D
  hasHess : D
  hasHessSp : D
  hasSeed : D
  name : D
  gsDim : D
  hsDim : D
  safety : D

/-- A problem and the local variables of `problem::load`, problem.hpp 1618. -/
structure ProbLoad (P D : Type) where
  prob : ProblemO P D
  fevals : D
  gevals : D
  hevals : D

/-- The arguments of `from_archive` in `problem::load`, problem.hpp 1619-1621. -/
def problemReads (cp : Codec P) (cd : Codec D) : List (Codec (ProbLoad P D)) :=
  [.field (·.prob.ptr) (fun v o => { o with prob := { o.prob with ptr := v } }) cp,
   .field (·.fevals) (fun v o => { o with fevals := v }) cd,
   .field (·.gevals) (fun v o => { o with gevals := v }) cd,
   .field (·.hevals) (fun v o => { o with hevals := v }) cd,
   .field (·.prob.lb) (fun v o => { o with prob := { o.prob with lb := v } }) cd,
   .field (·.prob.ub) (fun v o => { o with prob := { o.prob with ub := v } }) cd,
   .field (·.prob.nobj) (fun v o => { o with prob := { o.prob with nobj := v } }) cd,
   .field (·.prob.nec) (fun v o => { o with prob := { o.prob with nec := v } }) cd,
   .field (·.prob.nic) (fun v o => { o with prob := { o.prob with nic := v } }) cd,
   .field (·.prob.nix) (fun v o => { o with prob := { o.prob with nix := v } }) cd,
   .field (·.prob.cTol) (fun v o => { o with prob := { o.prob with cTol := v } }) cd,
   .field (·.prob.hasBatch) (fun v o => { o with prob := { o.prob with hasBatch := v } }) cd,
   .field (·.prob.hasGrad) (fun v o => { o with prob := { o.prob with hasGrad := v } }) cd,
   .field (·.prob.hasGradSp) (fun v o => { o with prob := { o.prob with hasGradSp := v } }) cd,
   .field (·.prob.hasHess) (fun v o => { o with prob := { o.prob with hasHess := v } }) cd,
   .field (·.prob.hasHessSp) (fun v o => { o with prob := { o.prob with hasHessSp := v } }) cd,
   .field (·.prob.hasSeed) (fun v o => { o with prob := { o.prob with hasSeed := v } }) cd,
   .field (·.prob.name) (fun v o => { o with prob := { o.prob with name := v } }) cd,
   .field (·.prob.gsDim) (fun v o => { o with prob := { o.prob with gsDim := v } }) cd,
   .field (·.prob.hsDim) (fun v o => { o with prob := { o.prob with hsDim := v } }) cd,
   .field (·.prob.safety) (fun v o => { o with prob := { o.prob with safety := v } }) cd]

/-- `problem::save` and `problem::load`, problem.hpp 1604-1630. `zero` is what the local variables hold before they are
read; the counters are stored at the end of `load`. -/
def problemC (dflt : ProblemO P D) (zero : D) (cp : Codec P) (cd : Codec D) : Codec (ProblemO P D) where
  save p :=
    [cp.save p.ptr, cd.save p.fevals, cd.save p.gevals, cd.save p.hevals, cd.save p.lb, cd.save p.ub, cd.save p.nobj,
      cd.save p.nec, cd.save p.nic, cd.save p.nix, cd.save p.cTol, cd.save p.hasBatch, cd.save p.hasGrad,
      cd.save p.hasGradSp, cd.save p.hasHess, cd.save p.hasHessSp, cd.save p.hasSeed, cd.save p.name, cd.save p.gsDim,
      cd.save p.hsDim, cd.save p.safety].flatten
  load o ts :=
    match (Codec.seq (problemReads cp cd)).load ⟨o, zero, zero, zero⟩ ts with
    | .ok l r => .ok { l.prob with fevals := l.fevals, gevals := l.gevals, hevals := l.hevals } r
    | .fail _ => .fail dflt

/-- `algorithm`, data members algorithm.hpp 756-764. -/
structure AlgorithmO (P D : Type) where
  ptr : P
  hasSeed : D
  hasVerbosity : D
  name : D
  safety : D

/-- `algorithm::save` and `algorithm::load`, algorithm.hpp 726-740. -/
def algorithmC (dflt : AlgorithmO P D) (cp : Codec P) (cd : Codec D) : Codec (AlgorithmO P D) :=
  .guarded dflt (.seq
    [.field (·.ptr) (fun v o => { o with ptr := v }) cp,
     .field (·.hasSeed) (fun v o => { o with hasSeed := v }) cd,
     .field (·.hasVerbosity) (fun v o => { o with hasVerbosity := v }) cd,
     .field (·.name) (fun v o => { o with name := v }) cd,
     .field (·.safety) (fun v o => { o with safety := v }) cd])

/-- `topology` (topology.hpp 428-432), `r_policy` (r_policy.hpp 359-364), `s_policy` (s_policy.hpp 360-365). -/
structure NamedO (P D : Type) where
  ptr : P
  name : D

/-- `save` and `load` of `topology` (topology.hpp 398-412), `r_policy` (321-335) and `s_policy` (322-336). -/
def namedC (dflt : NamedO P D) (cp : Codec P) (cd : Codec D) : Codec (NamedO P D) :=
  .guarded dflt (.seq
    [.field (·.ptr) (fun v o => { o with ptr := v }) cp,
     .field (·.name) (fun v o => { o with name := v }) cd])

/-- `bfe`, bfe.hpp 381-388. -/
structure BfeO (P D : Type) where
  ptr : P
  name : D
  safety : D

/-- `bfe::save` and `bfe::load`, bfe.hpp 350-364. -/
def bfeC (dflt : BfeO P D) (cp : Codec P) (cd : Codec D) : Codec (BfeO P D) :=
  .guarded dflt (.seq
    [.field (·.ptr) (fun v o => { o with ptr := v }) cp,
     .field (·.name) (fun v o => { o with name := v }) cd,
     .field (·.safety) (fun v o => { o with safety := v }) cd])

/-- `population`, population.hpp 334-350. -/
structure PopO (P D : Type) where
  prob : ProblemO P D
  ids : D
  x : D
  f : D
  champX : D
  champF : D
  e : D
  seed : D

/-- `population::save` and `population::load`, population.hpp 312-329. -/
def populationC (dflt : PopO P D) (cprob : Codec (ProblemO P D)) (cd : Codec D) : Codec (PopO P D) :=
  .guarded dflt (.seq
    [.field (·.prob) (fun v o => { o with prob := v }) cprob,
     .field (·.ids) (fun v o => { o with ids := v }) cd,
     .field (·.x) (fun v o => { o with x := v }) cd,
     .field (·.f) (fun v o => { o with f := v }) cd,
     .field (·.champX) (fun v o => { o with champX := v }) cd,
     .field (·.champF) (fun v o => { o with champF := v }) cd,
     .field (·.e) (fun v o => { o with e := v }) cd,
     .field (·.seed) (fun v o => { o with seed := v }) cd])

/-- What an island holds apart from its running tasks and its archipelago (`idata_t`). -/
structure IslandO (P D : Type) where
  ptr : P
  algo : AlgorithmO P D
  pop : PopO P D
  rPol : NamedO P D
  sPol : NamedO P D

/-- `island::save` and `island::load`, island.hpp 1197-1214; `wait_check_ignore` is left out (see C14). -/
def islandC (dflt : IslandO P D) (cp : Codec P) (ca : Codec (AlgorithmO P D)) (cpop : Codec (PopO P D))
    (cr cs : Codec (NamedO P D)) : Codec (IslandO P D) :=
  .guarded dflt (.seq
    [.field (·.ptr) (fun v o => { o with ptr := v }) cp,
     .field (·.algo) (fun v o => { o with algo := v }) ca,
     .field (·.pop) (fun v o => { o with pop := v }) cpop,
     .field (·.rPol) (fun v o => { o with rPol := v }) cr,
     .field (·.sPol) (fun v o => { o with sPol := v }) cs])

/-- An island of an archipelago: where it is in memory, the archipelago it points to, and its contents. -/
structure Slot (I : Type) where
  addr : Nat
  archi : Option Nat
  isl : I

/-- `archipelago`, archipelago.hpp 730-749. `self` is its address. -/
structure ArchiO (I T D : Type) where
  self : Nat
  slots : List (Slot I)
  /-- `m_idx_map`: from the address of an island to its index -/
  idxMap : List (Nat × Nat)
  migrants : D
  log : D
  topo : T
  mtype : D
  handling : D

/-- `unordered_map::emplace`: nothing happens if the key is there already. -/
def emplace (m : List (Nat × Nat)) (k v : Nat) : List (Nat × Nat) :=
  if (m.lookup k).isSome then m else (k, v) :: m

/-- One round of the loop of archipelago.hpp 688-691. -/
def remap (self : Nat) (m : List (Nat × Nat)) (i : Nat) : List (Slot I) → List (Nat × Nat) × List (Slot I)
  | [] => (m, [])
  | s :: l =>
    let r := remap self (emplace m s.addr i) (i + 1) l
    (r.1, { s with archi := some self } :: r.2)

/-- The islands read from an archive are new objects; `alloc i` is the address of the `i`-th one. Their archipelago
pointer is null. -/
def fresh (alloc : Nat → Nat) (i : Nat) : List I → List (Slot I)
  | [] => []
  | x :: l => ⟨alloc i, none, x⟩ :: fresh alloc (i + 1) l

/-- `archipelago::load`, archipelago.hpp 675-717, once the islands have been read. -/
def archiRest (ct : Codec T) (cd : Codec D) : Codec (ArchiO I T D) :=
  .seq
    [.field (·.migrants) (fun v o => { o with migrants := v }) cd,
     .field (·.log) (fun v o => { o with log := v }) cd,
     .field (·.topo) (fun v o => { o with topo := v }) ct,
     .field (·.mtype) (fun v o => { o with mtype := v }) cd,
     .field (·.handling) (fun v o => { o with handling := v }) cd]

/-- `archipelago{}` assigned to the archipelago at `self`. -/
def archiDflt (topo : T) (empty mtype handling : D) (self : Nat) : ArchiO I T D :=
  ⟨self, [], [], empty, empty, topo, mtype, handling⟩

/-- `archipelago::save` and `archipelago::load`, archipelago.hpp 666-717. `m_islands` is a vector of (never null)
`unique_ptr<island>`: each island is loaded into a new default-constructed one. `wait_check_ignore` is left out. -/
def archiC (dislf : I) (dflt : Nat → ArchiO I T D) (alloc : Nat → Nat) (ci : Codec I) (ct : Codec T) (cd : Codec D) :
    Codec (ArchiO I T D) where
  save a := (Codec.vec dislf ci).save (a.slots.map (·.isl)) ++ (archiRest ct cd).save a
  load o ts :=
    -- 683
    match (Codec.vec dislf ci).load [] ts with
    | .fail _ => .fail (dflt o.self)
    | .ok l r =>
      -- 687-691
      let m := remap o.self [] 0 (fresh alloc 0 l)
      -- 694-712
      match (archiRest ct cd).load { o with slots := m.2, idxMap := m.1 } r with
      | .ok a r' => .ok a r'
      | .fail _ => .fail (dflt o.self)

/-! ## Classes with `save` and `load` of their own -/

/-- The `boost::any` members of `not_population_based`, not_population_based.hpp 153-165. -/
inductive Choice where
  | name (s : String)
  | index (n : Nat)
  deriving DecidableEq

/-- not_population_based.hpp 98-105, 122-129 (and 106-113, 130-137). -/
def choiceC : Codec Choice where
  save c :=
    match c with
    | .name s => [.flag true, .str s]
    | .index n => [.flag false, .idx n]
  load o ts :=
    match ts with
    | .flag true :: r =>
      match strC.load "" r with
      | .ok s r' => .ok (.name s) r'
      | .fail _ => .fail o
    | .flag false :: r =>
      match natC.load 0 r with
      | .ok n r' => .ok (.index n) r'
      | .fail _ => .fail o
    | _ => .fail o

/-- `not_population_based`, not_population_based.hpp 153-169. -/
structure NpbO (D : Type) where
  select : Choice
  replace : Choice
  seed : D
  e : D

/-- `not_population_based::save` and `load`, not_population_based.hpp 94-141. -/
def npbC (cd : Codec D) : Codec (NpbO D) :=
  .seq
    [.field (·.select) (fun v o => { o with select := v }) choiceC,
     .field (·.replace) (fun v o => { o with replace := v }) choiceC,
     .field (·.seed) (fun v o => { o with seed := v }) cd,
     .field (·.e) (fun v o => { o with e := v }) cd]

/-- `thread_island::save` and `load`, src/islands/thread_island.cpp 160-182: the class version (1, thread_island.hpp
75), then `m_use_pool`. -/
def threadIslandC : Codec Bool where
  save b := [.idx 1, .flag b]
  load o ts :=
    match ts with
    | .idx v :: r => if v > 0 then boolC.load o r else .ok false r
    | _ => .fail o

/-- The data members of `nlopt` (nlopt.hpp 409-421) apart from the local optimizer. -/
structure NloptO (D : Type) where
  base : NpbO D
  algo : D
  lastResult : D
  stopval : D
  ftolRel : D
  ftolAbs : D
  xtolRel : D
  xtolAbs : D
  maxeval : D
  maxtime : D
  verbosity : D
  log : D

/-- The first call of `to_archive` and `from_archive` in `nlopt::save` and `nlopt::load`, src/algorithms/nlopt.cpp
1011-1013, 1025-1027. -/
def nloptFlatC (cd : Codec D) : Codec (NloptO D) :=
  .seq
    [.field (·.base) (fun v o => { o with base := v }) (npbC cd),
     .field (·.algo) (fun v o => { o with algo := v }) cd,
     .field (·.lastResult) (fun v o => { o with lastResult := v }) cd,
     .field (·.stopval) (fun v o => { o with stopval := v }) cd,
     .field (·.ftolRel) (fun v o => { o with ftolRel := v }) cd,
     .field (·.ftolAbs) (fun v o => { o with ftolAbs := v }) cd,
     .field (·.xtolRel) (fun v o => { o with xtolRel := v }) cd,
     .field (·.xtolAbs) (fun v o => { o with xtolAbs := v }) cd,
     .field (·.maxeval) (fun v o => { o with maxeval := v }) cd,
     .field (·.maxtime) (fun v o => { o with maxtime := v }) cd,
     .field (·.verbosity) (fun v o => { o with verbosity := v }) cd,
     .field (·.log) (fun v o => { o with log := v }) cd]

/-- An `nlopt` object: its own members, and the chain of local optimizers behind `m_loc_opt` (the local optimizer, the
local optimizer of the local optimizer, and so on). -/
structure NloptChain (D : Type) where
  head : NloptO D
  locals : List (NloptO D)

/-- `nlopt::save`, nlopt.cpp 1008-1019. -/
def nloptSave (cd : Codec D) (h : NloptO D) : List (NloptO D) → List Tok
  | [] => (nloptFlatC cd).save h ++ [.flag false]
  | l :: ls => (nloptFlatC cd).save h ++ .flag true :: nloptSave cd l ls

/-- `nlopt::load`, nlopt.cpp 1022-1034; `dflt` is `nlopt()`, without local optimizer. Every nested call reads at least
one token: the recursion is bounded by the length of the archive. -/
def nloptLoad (cd : Codec D) (dflt : NloptO D) : Nat → NloptChain D → List Tok → Res (NloptChain D)
  | 0, o, _ => .fail o
  | n + 1, o, ts =>
    match (nloptFlatC cd).load o.head ts with
    | .fail h => .fail { o with head := h }
    | .ok h r =>
      match r with
      | .flag true :: r' =>
        -- 1031-1032
        match nloptLoad cd dflt n ⟨dflt, []⟩ r' with
        | .ok l r'' => .ok ⟨h, l.head :: l.locals⟩ r''
        | .fail l => .fail ⟨h, l.head :: l.locals⟩
      | .flag false :: r' => .ok ⟨h, o.locals⟩ r'
      | _ => .fail ⟨h, o.locals⟩

/-- `nlopt` -/
def nloptC (cd : Codec D) (dflt : NloptO D) : Codec (NloptChain D) where
  save a := nloptSave cd a.head a.locals
  load o ts := nloptLoad cd dflt (ts.length + 1) o ts

/-! ## Classes with one list of archived members -/

/-- A class: its name, its data members in the order of their declaration, and the members that `serialize` passes to
`archive`, in order. A base class that has data counts as a member. -/
structure ClassTab where
  name : String
  members : List String
  archived : List String
  deriving DecidableEq

/-- The classes of pagmo, transcribed from the sources. `fork_island` has one more member, `m_pid` (fork_island.hpp 77),
the process id of a running child; it is left out here as it is by the copy constructor (fork_island.hpp 57-58). Mutexes
are left out. -/
def classTabs : List ClassTab := [
  -- members: algorithms/bee_colony.hpp 171-176; `serialize`: src/algorithms/bee_colony.cpp 265-268
  ⟨"bee_colony", ["m_gen", "m_limit", "m_e", "m_seed", "m_verbosity", "m_log"],
     ["m_gen", "m_limit", "m_e", "m_seed", "m_verbosity", "m_log"]⟩,
  -- members: algorithms/cmaes.hpp 242-272; `serialize`: src/algorithms/cmaes.cpp 470-475
  ⟨"cmaes", ["m_gen", "m_cc", "m_cs", "m_c1", "m_cmu", "m_sigma0", "m_ftol", "m_xtol", "m_memory",
     "m_force_bounds", "sigma", "mean", "variation", "newpop", "B", "D", "C", "invsqrtC", "pc", "ps", "counteval",
     "eigeneval", "m_e", "m_seed", "m_verbosity", "m_log", "m_bfe"],
     ["m_gen", "m_cc", "m_cs", "m_c1", "m_cmu", "m_sigma0", "m_ftol", "m_xtol", "m_memory", "m_force_bounds",
     "sigma", "mean", "variation", "newpop", "B", "D", "C", "invsqrtC", "pc", "ps", "counteval", "eigeneval",
     "m_e", "m_seed", "m_verbosity", "m_log", "m_bfe"]⟩,
  -- members: algorithms/compass_search.hpp 231-236; `serialize`: src/algorithms/compass_search.cpp 215-219
  ⟨"compass_search", ["not_population_based", "m_max_fevals", "m_start_range", "m_stop_range", "m_reduction_coeff",
     "m_verbosity", "m_log"],
     ["not_population_based", "m_max_fevals", "m_start_range", "m_stop_range", "m_reduction_coeff", "m_verbosity",
     "m_log"]⟩,
  -- members: algorithms/cstrs_self_adaptive.hpp 393-398; `serialize`: src/algorithms/cstrs_self_adaptive.cpp 551-554
  ⟨"cstrs_self_adaptive", ["m_algorithm", "m_iters", "m_e", "m_seed", "m_verbosity", "m_log"],
     ["m_algorithm", "m_iters", "m_e", "m_seed", "m_verbosity", "m_log"]⟩,
  -- members: algorithms/de.hpp 192-201; `serialize`: src/algorithms/de.cpp 382-385
  ⟨"de", ["m_gen", "m_F", "m_CR", "m_variant", "m_Ftol", "m_xtol", "m_e", "m_seed", "m_verbosity", "m_log"],
     ["m_gen", "m_F", "m_CR", "m_variant", "m_Ftol", "m_xtol", "m_e", "m_seed", "m_verbosity", "m_log"]⟩,
  -- members: algorithms/de1220.hpp 262-274; `serialize`: src/algorithms/de1220.cpp 636-640
  ⟨"de1220", ["m_gen", "m_F", "m_CR", "m_variant", "m_allowed_variants", "m_variant_adptv", "m_ftol", "m_xtol",
     "m_memory", "m_e", "m_seed", "m_verbosity", "m_log"],
     ["m_gen", "m_F", "m_CR", "m_allowed_variants", "m_variant_adptv", "m_ftol", "m_xtol", "m_memory", "m_e",
     "m_seed", "m_verbosity", "m_log"]⟩,
  -- members: algorithms/gaco.hpp 242-264; `serialize`: src/algorithms/gaco.cpp 488-493
  ⟨"gaco", ["m_gen", "m_acc", "m_impstop", "m_evalstop", "m_focus", "m_ker", "m_oracle", "m_e", "m_seed",
     "m_verbosity", "m_log", "m_res", "m_threshold", "m_q", "m_n_gen_mark", "m_memory", "m_counter",
     "m_sol_archive", "m_n_evalstop", "m_n_impstop", "m_gen_mark", "m_fevals", "m_bfe"],
     ["m_gen", "m_acc", "m_impstop", "m_evalstop", "m_focus", "m_ker", "m_oracle", "m_e", "m_seed", "m_verbosity",
     "m_log", "m_res", "m_threshold", "m_q", "m_n_gen_mark", "m_memory", "m_counter", "m_sol_archive",
     "m_n_evalstop", "m_n_impstop", "m_gen_mark", "m_fevals", "m_bfe"]⟩,
  -- members: algorithms/gwo.hpp 184-188; `serialize`: src/algorithms/gwo.cpp 239-242
  ⟨"gwo", ["m_gen", "m_seed", "m_e", "m_verbosity", "m_log"],
     ["m_gen", "m_seed", "m_e", "m_verbosity", "m_log"]⟩,
  -- members: algorithms/ihs.hpp 226-235; `serialize`: src/algorithms/ihs.cpp 242-245
  ⟨"ihs", ["m_gen", "m_phmcr", "m_ppar_min", "m_ppar_max", "m_bw_min", "m_bw_max", "m_e", "m_seed", "m_verbosity",
     "m_log"],
     ["m_gen", "m_phmcr", "m_ppar_min", "m_ppar_max", "m_bw_min", "m_bw_max", "m_e", "m_seed", "m_verbosity",
     "m_log"]⟩,
  -- members: algorithms/ipopt.hpp 306-313; `serialize`: src/algorithms/ipopt.cpp 955-959
  ⟨"ipopt", ["not_population_based", "m_string_opts", "m_integer_opts", "m_numeric_opts", "m_last_opt_res",
     "m_verbosity", "m_log"],
     ["not_population_based", "m_string_opts", "m_integer_opts", "m_numeric_opts", "m_last_opt_res", "m_verbosity",
     "m_log"]⟩,
  -- members: algorithms/maco.hpp 124-141; `serialize`: src/algorithms/maco.cpp 570-574
  ⟨"maco", ["m_gen", "m_focus", "m_ker", "m_evalstop", "m_e", "m_seed", "m_verbosity", "m_log", "m_threshold",
     "m_q", "m_n_gen_mark", "m_memory", "m_counter", "m_sol_archive", "m_n_evalstop", "m_gen_mark", "m_bfe", "m_pop"],
     ["m_gen", "m_focus", "m_ker", "m_evalstop", "m_e", "m_seed", "m_verbosity", "m_log", "m_threshold", "m_q",
     "m_n_gen_mark", "m_memory", "m_counter", "m_sol_archive", "m_n_evalstop", "m_gen_mark", "m_bfe"]⟩,
  -- members: algorithms/mbh.hpp 282-288; `serialize`: src/algorithms/mbh.cpp 263-266
  ⟨"mbh", ["m_algorithm", "m_stop", "m_perturb", "m_e", "m_seed", "m_verbosity", "m_log"],
     ["m_algorithm", "m_stop", "m_perturb", "m_e", "m_seed", "m_verbosity", "m_log"]⟩,
  -- members: algorithms/moead.hpp 211-224; `serialize`: src/algorithms/moead.cpp 327-331
  ⟨"moead", ["m_gen", "m_weight_generation", "m_decomposition", "m_neighbours", "m_CR", "m_F", "m_eta_m",
     "m_realb", "m_limit", "m_preserve_diversity", "m_e", "m_seed", "m_verbosity", "m_log"],
     ["m_gen", "m_weight_generation", "m_decomposition", "m_neighbours", "m_CR", "m_F", "m_eta_m", "m_realb",
     "m_limit", "m_preserve_diversity", "m_e", "m_seed", "m_verbosity", "m_log"]⟩,
  -- members: algorithms/moead_gen.hpp 204-218; `serialize`: src/algorithms/moead_gen.cpp 392-396
  ⟨"moead_gen", ["m_gen", "m_weight_generation", "m_decomposition", "m_neighbours", "m_CR", "m_F", "m_eta_m",
     "m_realb", "m_limit", "m_preserve_diversity", "m_e", "m_seed", "m_verbosity", "m_log", "m_bfe"],
     ["m_gen", "m_weight_generation", "m_decomposition", "m_neighbours", "m_CR", "m_F", "m_eta_m", "m_realb",
     "m_limit", "m_preserve_diversity", "m_e", "m_seed", "m_verbosity", "m_log", "m_bfe"]⟩,
  -- members: algorithms/nsga2.hpp 177-186; `serialize`: src/algorithms/nsga2.cpp 349-352
  ⟨"nsga2", ["m_gen", "m_cr", "m_eta_c", "m_m", "m_eta_m", "m_e", "m_seed", "m_verbosity", "m_log", "m_bfe"],
     ["m_gen", "m_cr", "m_eta_c", "m_m", "m_eta_m", "m_e", "m_seed", "m_verbosity", "m_log", "m_bfe"]⟩,
  -- members: algorithms/nspso.hpp 125-142; `serialize`: src/algorithms/nspso.cpp 442-446
  ⟨"nspso", ["m_gen", "m_omega", "m_c1", "m_c2", "m_chi", "m_v_coeff", "m_leader_selection_range",
     "m_diversity_mechanism", "m_memory", "m_velocity", "m_best_fit", "m_best_dvs", "m_e", "m_seed", "m_verbosity",
     "m_log", "m_bfe"],
     ["m_gen", "m_omega", "m_c1", "m_c2", "m_chi", "m_v_coeff", "m_leader_selection_range",
     "m_diversity_mechanism", "m_e", "m_seed", "m_verbosity", "m_log", "m_bfe"]⟩,
  -- members: algorithms/null_algorithm.hpp (none); `serialize`: src/algorithms/null_algorithm.cpp 53-55
  ⟨"null_algorithm", [],
     []⟩,
  -- members: algorithms/pso.hpp 242-263; `serialize`: src/algorithms/pso.cpp 482-486
  ⟨"pso", ["m_max_gen", "m_omega", "m_eta1", "m_eta2", "m_max_vel", "m_variant", "m_neighb_type", "m_neighb_param",
     "m_memory", "m_V", "m_e", "m_seed", "m_verbosity", "m_log"],
     ["m_max_gen", "m_omega", "m_eta1", "m_eta2", "m_max_vel", "m_variant", "m_neighb_type", "m_neighb_param",
     "m_e", "m_seed", "m_verbosity", "m_log"]⟩,
  -- members: algorithms/pso_gen.hpp 210-231; `serialize`: src/algorithms/pso_gen.cpp 578-582
  ⟨"pso_gen", ["m_max_gen", "m_omega", "m_eta1", "m_eta2", "m_max_vel", "m_variant", "m_neighb_type",
     "m_neighb_param", "m_memory", "m_V", "m_e", "m_seed", "m_verbosity", "m_log", "m_bfe"],
     ["m_max_gen", "m_omega", "m_eta1", "m_eta2", "m_max_vel", "m_variant", "m_neighb_type", "m_neighb_param",
     "m_e", "m_seed", "m_verbosity", "m_log", "m_bfe"]⟩,
  -- members: algorithms/sade.hpp 239-250; `serialize`: src/algorithms/sade.cpp 621-625
  ⟨"sade", ["m_gen", "m_F", "m_CR", "m_variant", "m_variant_adptv", "m_Ftol", "m_xtol", "m_memory", "m_e",
     "m_seed", "m_verbosity", "m_log"],
     ["m_gen", "m_F", "m_CR", "m_variant", "m_variant_adptv", "m_Ftol", "m_xtol", "m_memory", "m_e", "m_seed",
     "m_verbosity", "m_log"]⟩,
  -- members: algorithms/sea.hpp 184-188; `serialize`: src/algorithms/sea.cpp 183-186
  ⟨"sea", ["m_gen", "m_e", "m_seed", "m_verbosity", "m_log"],
     ["m_gen", "m_e", "m_seed", "m_verbosity", "m_log"]⟩,
  -- members: algorithms/sga.hpp 272-284; `serialize`: src/algorithms/sga.cpp 335-339
  ⟨"sga", ["m_gen", "m_cr", "m_eta_c", "m_m", "m_param_m", "m_param_s", "m_mutation", "m_selection", "m_crossover",
     "m_e", "m_seed", "m_verbosity", "m_log"],
     ["m_gen", "m_cr", "m_eta_c", "m_m", "m_param_m", "m_param_s", "m_mutation", "m_selection", "m_crossover",
     "m_e", "m_seed", "m_verbosity", "m_log"]⟩,
  -- members: algorithms/simulated_annealing.hpp 206-221; `serialize`: src/algorithms/simulated_annealing.cpp 269-273
  ⟨"simulated_annealing", ["not_population_based", "m_Ts", "m_Tf", "m_n_T_adj", "m_n_range_adj", "m_bin_size",
     "m_start_range", "m_e", "m_seed", "m_verbosity", "m_log"],
     ["not_population_based", "m_Ts", "m_Tf", "m_n_T_adj", "m_n_range_adj", "m_bin_size", "m_start_range", "m_e",
     "m_seed", "m_verbosity", "m_log"]⟩,
  -- members: algorithms/xnes.hpp 247-266; `serialize`: src/algorithms/xnes.cpp 374-378
  ⟨"xnes", ["m_gen", "m_eta_mu", "m_eta_sigma", "m_eta_b", "m_sigma0", "m_ftol", "m_xtol", "m_memory",
     "m_force_bounds", "sigma", "mean", "A", "m_e", "m_seed", "m_verbosity", "m_log"],
     ["m_gen", "m_eta_mu", "m_eta_sigma", "m_eta_b", "m_sigma0", "m_ftol", "m_xtol", "m_memory", "m_force_bounds",
     "sigma", "mean", "A", "m_e", "m_seed", "m_verbosity", "m_log"]⟩,
  -- members: problems/ackley.hpp 81; `serialize`: src/problems/ackley.cpp 103-106
  ⟨"ackley", ["m_dim"],
     ["m_dim"]⟩,
  -- members: problems/cec2006.hpp 275; `serialize`: src/problems/cec2006.cpp 259-262
  ⟨"cec2006", ["m_prob_id"],
     ["m_prob_id"]⟩,
  -- members: problems/cec2009.hpp 153-155; `serialize`: src/problems/cec2009.cpp 250-253
  ⟨"cec2009", ["m_prob_id", "m_is_constrained", "m_dim"],
     ["m_prob_id", "m_is_constrained", "m_dim"]⟩,
  -- members: problems/cec2013.hpp 153-160; `serialize`: src/problems/cec2013.cpp 312-315
  ⟨"cec2013", ["m_prob_id", "m_rotation_matrix", "m_origin_shift", "m_y", "m_z"],
     ["m_prob_id", "m_rotation_matrix", "m_origin_shift", "m_y", "m_z"]⟩,
  -- members: problems/cec2014.hpp 227-236; `serialize`: src/problems/cec2014.cpp 354-357
  ⟨"cec2014", ["m_origin_shift", "m_rotation_matrix", "m_shuffle", "m_z", "m_y", "func_num"],
     ["func_num", "m_rotation_matrix", "m_origin_shift", "m_shuffle", "m_y", "m_z"]⟩,
  -- members: problems/decompose.hpp 216-224; `serialize`: src/problems/decompose.cpp 290-293
  ⟨"decompose", ["m_problem", "m_weight", "m_z", "m_method", "m_adapt_ideal"],
     ["m_problem", "m_weight", "m_z", "m_method", "m_adapt_ideal"]⟩,
  -- members: problems/dtlz.hpp 161-167; `serialize`: src/problems/dtlz.cpp 176-179
  ⟨"dtlz", ["m_prob_id", "m_alpha", "m_dim", "m_fdim"],
     ["m_prob_id", "m_dim", "m_fdim", "m_alpha"]⟩,
  -- members: problems/golomb_ruler.hpp 130-132; `serialize`: src/problems/golomb_ruler.cpp 124-127
  ⟨"golomb_ruler", ["m_order", "m_upper_bound"],
     ["m_order", "m_upper_bound"]⟩,
  -- members: problems/griewank.hpp 86; `serialize`: src/problems/griewank.cpp 102-105
  ⟨"griewank", ["m_dim"],
     ["m_dim"]⟩,
  -- members: problems/hock_schittkowski_71.hpp (no data members);
  -- `serialize`: src/problems/hock_schittkowski_71.cpp 145-147
  ⟨"hock_schittkowski_71", [],
     []⟩,
  -- members: problems/inventory.hpp 118-124; `serialize`: src/problems/inventory.cpp 102-105
  ⟨"inventory", ["m_weeks", "m_sample_size", "m_e", "m_seed"],
     ["m_weeks", "m_sample_size", "m_e", "m_seed"]⟩,
  -- members: problems/lennard_jones.hpp 87; `serialize`: src/problems/lennard_jones.cpp 126-129
  ⟨"lennard_jones", ["m_atoms"],
     ["m_atoms"]⟩,
  -- members: problems/luksan_vlcek1.hpp 108; `serialize`: src/problems/luksan_vlcek1.cpp 153-156
  ⟨"luksan_vlcek1", ["m_dim"],
     ["m_dim"]⟩,
  -- members: problems/minlp_rastrigin.hpp 130-131; `serialize`: src/problems/minlp_rastrigin.cpp 169-172
  ⟨"minlp_rastrigin", ["m_dim_c", "m_dim_i"],
     ["m_dim_c", "m_dim_i"]⟩,
  -- members: problems/null_problem.hpp 110-113; `serialize`: src/problems/null_problem.cpp 74-77
  ⟨"null_problem", ["m_nobj", "m_nec", "m_nic", "m_nix"],
     ["m_nobj", "m_nec", "m_nic", "m_nix"]⟩,
  -- members: problems/rastrigin.hpp 104; `serialize`: src/problems/rastrigin.cpp 161-164
  ⟨"rastrigin", ["m_dim"],
     ["m_dim"]⟩,
  -- members: problems/rosenbrock.hpp 91; `serialize`: src/problems/rosenbrock.cpp 105-108
  ⟨"rosenbrock", ["m_dim"],
     ["m_dim"]⟩,
  -- members: problems/schwefel.hpp 80; `serialize`: src/problems/schwefel.cpp 95-98
  ⟨"schwefel", ["m_dim"],
     ["m_dim"]⟩,
  -- members: problems/translate.hpp 193-195; `serialize`: src/problems/translate.cpp 409-412
  ⟨"translate", ["m_problem", "m_translation"],
     ["m_problem", "m_translation"]⟩,
  -- members: problems/unconstrain.hpp 178-191; `serialize`: src/problems/unconstrain.cpp 385-388
  ⟨"unconstrain", ["m_problem", "m_method", "m_weights"],
     ["m_problem", "m_method", "m_weights"]⟩,
  -- members: problems/wfg.hpp 107-110; `serialize`: src/problems/wfg.cpp 155-158
  ⟨"wfg", ["m_prob_id", "m_dim_dvs", "m_dim_obj", "m_dim_k"],
     ["m_prob_id", "m_dim_dvs", "m_dim_obj", "m_dim_k"]⟩,
  -- members: problems/zdt.hpp 205-206; `serialize`: src/problems/zdt.cpp 228-231
  ⟨"zdt", ["m_prob_id", "m_param"],
     ["m_prob_id", "m_param"]⟩,
  -- members: topologies/free_form.hpp (none); `serialize`: src/topologies/free_form.cpp 71-74
  ⟨"free_form", ["base_bgl_topology"],
     ["base_bgl_topology"]⟩,
  -- members: topologies/fully_connected.hpp 75-76; `save`, `load`: src/topologies/fully_connected.cpp 188-203
  ⟨"fully_connected", ["m_weight", "m_num_vertices"],
     ["m_weight", "m_num_vertices"]⟩,
  -- members: topologies/ring.hpp 62; `serialize`: src/topologies/ring.cpp 68-71
  ⟨"ring", ["base_bgl_topology", "m_weight"],
     ["base_bgl_topology", "m_weight"]⟩,
  -- members: topologies/unconnected.hpp (none); `serialize`: src/topologies/unconnected.cpp 59-61
  ⟨"unconnected", [],
     []⟩,
  -- members: r_policies/fair_replace.hpp (none); `serialize`: src/r_policies/fair_replace.cpp 237-240
  ⟨"fair_replace", ["base_sr_policy"],
     ["base_sr_policy"]⟩,
  -- members: s_policies/select_best.hpp (none); `serialize`: src/s_policies/select_best.cpp 188-191
  ⟨"select_best", ["base_sr_policy"],
     ["base_sr_policy"]⟩,
  -- members: batch_evaluators/default_bfe.hpp (none); `serialize`: src/batch_evaluators/default_bfe.cpp 86-88
  ⟨"default_bfe", [],
     []⟩,
  -- members: batch_evaluators/member_bfe.hpp (none); `serialize`: src/batch_evaluators/member_bfe.cpp 49-51
  ⟨"member_bfe", [],
     []⟩,
  -- members: batch_evaluators/thread_bfe.hpp (none); `serialize`: src/batch_evaluators/thread_bfe.cpp 148-150
  ⟨"thread_bfe", [],
     []⟩]

/-- An object: the values of its members. -/
abbrev Fields (V : Type) := String → V

/-- The assignment of a member. -/
def setField {V : Type} (m : String) (v : V) (o : Fields V) : Fields V := fun k => if k = m then v else o k

/-- `serialize` of a class, for any serialization of the types of the members. -/
def ClassTab.codec {V : Type} (c : ClassTab) (cv : Codec V) : Codec (Fields V) :=
  .seq (c.archived.map fun m => .field (fun o => o m) (setField m) cv)

end Verif.S11n
