import Verif.Base.Run
import Verif.Base.FlArith

/-!
# Model of the topologies: src/topology.cpp, src/topologies/*.cpp

The Boost graph (directed, bidirectional, vectors for vertices and edges, parallel edges possible) is the number of
vertices and the list of edges in insertion order; `boost::add_edge`, `remove_edge`, `edge`, `inv_adjacent_vertices`
follow the Boost documentation. Numeric casts between index types never fail (`std::size_t` throughout). Every method
of `base_bgl_topology` holds the mutex for its whole duration, so a method is one step.
-/

set_option autoImplicit false

namespace Verif.Topo

open Verif

variable {K : Type}

/-- `bgl_graph_t`, include/pagmo/topology.hpp 109-117: edges are (source, target, weight). -/
structure Graph (K : Type) where
  nv : Nat
  edges : List (Nat × Nat × Fl K)

/-- is `e` an edge from `i` to `j` -/
def joins (i j : Nat) (e : Nat × Nat × Fl K) : Bool := e.1 == i && e.2.1 == j

section
variable [Field K] [LinearOrder K]

/-- `detail::topology_check_edge_weight`, src/topology.cpp 58-69. -/
def checkWeight (w : Fl K) : Outcome Unit :=
  if !w.isFinite then .throws .invalidArgument
  else if Fl.lt w (.fin 0) || Fl.gt w (.fin 1) then .throws .invalidArgument
  else .ok ()

end

/-- `unsafe_check_vertex_indices`, src/topologies/base_bgl_topology.cpp 79-90. -/
def checkVertices : List Nat → Run (Graph K) Unit
  | [] => pure ()
  | i :: is => do
    let g ← Run.get
    if i ≥ g.nv then Run.throw .invalidArgument else checkVertices is

/-- `add_vertex`, src/topologies/base_bgl_topology.cpp 130-134. -/
def addVertex : Run (Graph K) Unit := Run.modify (fun g => { g with nv := g.nv + 1 })

/-- `num_vertices`, src/topologies/base_bgl_topology.cpp 136-140. -/
def numVertices : Run (Graph K) Nat := do
  let g ← Run.get
  pure g.nv

/-- `unsafe_are_adjacent`, src/topologies/base_bgl_topology.cpp 142-148. -/
def areAdjacent (i j : Nat) : Run (Graph K) Bool := do
  checkVertices [i, j]
  let g ← Run.get
  pure (g.edges.any (joins i j))

section
variable [Field K] [LinearOrder K]

/-- `add_edge`, src/topologies/base_bgl_topology.cpp 156-171. -/
def addEdge (i j : Nat) (w : Fl K) : Run (Graph K) Unit := do
  Run.lift (checkWeight w)
  let a ← areAdjacent i j
  if a then Run.throw .invalidArgument
  else Run.modify (fun g => { g with edges := g.edges ++ [(i, j, w)] })

end

/-- `remove_edge`, src/topologies/base_bgl_topology.cpp 173-182; `boost::remove_edge(u, v, g)` removes every edge
from `u` to `v`. -/
def removeEdge (i j : Nat) : Run (Graph K) Unit := do
  let a ← areAdjacent i j
  if !a then Run.throw .invalidArgument
  else Run.modify (fun g => { g with edges := g.edges.filter (fun e => !joins i j e) })

section
variable [Field K] [LinearOrder K]

/-- `set_all_weights`, src/topologies/base_bgl_topology.cpp 184-193. -/
def setAllWeights (w : Fl K) : Run (Graph K) Unit := do
  Run.lift (checkWeight w)
  Run.modify (fun g => { g with edges := g.edges.map (fun e => (e.1, e.2.1, w)) })

/-- set the weight of the first edge from `i` to `j` -/
def setFirst (i j : Nat) (w : Fl K) : List (Nat × Nat × Fl K) → List (Nat × Nat × Fl K)
  | [] => []
  | e :: es => if joins i j e then (i, j, w) :: es else e :: setFirst i j w es

/-- `set_weight`, src/topologies/base_bgl_topology.cpp 195-212. -/
def setWeight (i j : Nat) (w : Fl K) : Run (Graph K) Unit := do
  Run.lift (checkWeight w)
  checkVertices [i, j]
  let g ← Run.get
  match g.edges.find? (joins i j) with
  | some _ => Run.set { g with edges := setFirst i j w g.edges }
  | none => Run.throw .invalidArgument

end

/-- `get_edge_weight`, src/topologies/base_bgl_topology.cpp 232-247. -/
def getEdgeWeight (i j : Nat) : Run (Graph K) (Fl K) := do
  checkVertices [i, j]
  let g ← Run.get
  match g.edges.find? (joins i j) with
  | some e => pure e.2.2
  | none => Run.throw .invalidArgument

/-- Weight of the edge `boost::edge` finds from `j` to `i`; the `assert` that it exists is modelled as undefined
behaviour when it fails. Part of `get_connections`, src/topologies/base_bgl_topology.cpp 223-227. -/
def weightTo (g : Graph K) (i j : Nat) : Outcome (Fl K) :=
  match g.edges.find? (joins j i) with
  | some e => .ok e.2.2
  | none => .ub

/-- `boost::inv_adjacent_vertices(i, g)` -/
def sources (g : Graph K) (i : Nat) : List Nat := (g.edges.filter (fun e => e.2.1 == i)).map (fun e => e.1)

/-- `get_connections`, src/topologies/base_bgl_topology.cpp 214-230. -/
def getConnections (i : Nat) : Run (Graph K) (List Nat × List (Fl K)) := do
  checkVertices [i]
  let g ← Run.get
  let ws ← Run.lift ((sources g i).mapM (weightTo g i))
  pure (sources g i, ws)

section
variable [Field K] [LinearOrder K]

/-- `free_form::free_form(bgl_graph_t)`, src/topologies/free_form.cpp 49-65. -/
def freeForm (g : Graph K) : Outcome (Graph K) := do
  g.edges.forM (fun e =>
    if !e.2.2.isFinite || Fl.lt e.2.2 (.fin 0) || Fl.gt e.2.2 (.fin 1) then .throws .invalidArgument else .ok ())
  .ok g

/-- Calls a client can make on a graph topology. -/
inductive Call (K : Type) where
  | addVertex
  | addEdge (i j : Nat) (w : Fl K)
  | removeEdge (i j : Nat)
  | setWeight (i j : Nat) (w : Fl K)
  | setAllWeights (w : Fl K)
  | getConnections (i : Nat)
  | areAdjacent (i j : Nat)

/-- Running a call, forgetting its result. -/
def Call.run : Call K → Run (Graph K) Unit
  | .addVertex => Topo.addVertex
  | .addEdge i j w => Topo.addEdge i j w
  | .removeEdge i j => Topo.removeEdge i j
  | .setWeight i j w => Topo.setWeight i j w
  | .setAllWeights w => Topo.setAllWeights w
  | .getConnections i => do let _ ← Topo.getConnections i; pure ()
  | .areAdjacent i j => do let _ ← Topo.areAdjacent i j; pure ()

/-- The state after a history of calls; exceptions are caught by the client and the object is used on. -/
def history (cs : List (Call K)) (g : Graph K) : Graph K := cs.foldl (fun g c => (c.run g).2) g

/-- `ring::push_back`, src/topologies/ring.cpp 74-114. -/
def ringPushBack (w : Fl K) : Run (Graph K) Unit := do
  addVertex
  let size ← numVertices
  match size with
  | 0 => Run.lift .ub
  | 1 => pure ()
  | 2 => do
    addEdge 0 1 w
    addEdge 1 0 w
  | 3 => do
    addEdge 1 2 w
    addEdge 2 1 w
    addEdge 2 0 w
    addEdge 0 2 w
  | size => do
    removeEdge (size - 2) 0
    removeEdge 0 (size - 2)
    addEdge (size - 2) (size - 1) w
    addEdge (size - 1) (size - 2) w
    addEdge 0 (size - 1) w
    addEdge (size - 1) 0 w

/-- `n` calls of `ring::push_back`; with `n` from the constructor this is `ring::ring(n, w)`,
src/topologies/ring.cpp 57-65. -/
def ringPush (w : Fl K) : Nat → Run (Graph K) Unit
  | 0 => pure ()
  | n + 1 => do
    ringPush w n
    ringPushBack w

/-- `ring::ring(n, w)`, src/topologies/ring.cpp 57-65. -/
def ring (n : Nat) (w : Fl K) : Outcome (Graph K) := do
  checkWeight w
  match ringPush w n ⟨0, []⟩ with
  | (.ok _, g) => .ok g
  | (.throws e, _) => .throws e
  | (.ub, _) => .ub
  | (.nofuel, _) => .nofuel

/-- A `fully_connected` topology: weight and number of vertices (an atomic counter; one step per call). -/
structure Full (K : Type) where
  weight : Fl K
  nv : Nat

/-- `fully_connected::fully_connected(n, w)`, src/topologies/fully_connected.cpp 63-66. -/
def full (n : Nat) (w : Fl K) : Outcome (Full K) := do
  checkWeight w
  .ok ⟨w, n⟩

/-- `fully_connected::push_back`, src/topologies/fully_connected.cpp 80-83 -/
def Full.pushBack (f : Full K) : Full K := { f with nv := f.nv + 1 }

/-- `fully_connected::get_connections`, src/topologies/fully_connected.cpp 86-116: a vector of `num_vertices - 1`
zeros filled by two loops. -/
def Full.getConnections (f : Full K) (i : Nat) : Outcome (List Nat × List (Fl K)) :=
  if i ≥ f.nv then .throws .invalidArgument
  else do
    let l0 := List.replicate (f.nv - 1) 0
    let l1 ← (List.range i).foldlM (fun l j => Outcome.set l j j) l0
    let l2 ← (List.range' (i + 1) (f.nv - (i + 1))).foldlM (fun l j => Outcome.set l (j - 1) j) l1
    .ok (l2, List.replicate (f.nv - 1) f.weight)

/-- `boost::add_edge` on a graph with a vector of vertices: missing vertices are created. -/
def boostAddEdge (g : Graph K) (i j : Nat) (w : Fl K) : Graph K :=
  ⟨max g.nv (max i j + 1), g.edges ++ [(i, j, w)]⟩

/-- `fully_connected::to_bgl`, src/topologies/fully_connected.cpp 119-159. -/
def Full.toBgl (f : Full K) : Graph K :=
  match f.nv with
  | 0 => ⟨0, []⟩
  | 1 => ⟨1, []⟩
  | nv => (List.range nv).foldl (fun g i => (List.range nv).foldl (fun g j =>
      if i = j then g else boostAddEdge g i j f.weight) g) ⟨0, []⟩

/-- `topology::get_connections`, src/topology.cpp 109-143; `ans` is what the user-defined topology returns. -/
def topologyGetConnections (ans : Except Exn (List Nat × List (Fl K))) : Outcome (List Nat × List (Fl K)) :=
  match ans with
  | .error e => .throws e
  | .ok r =>
    if r.1.length ≠ r.2.length then .throws .invalidArgument
    else do
      r.2.forM (fun p =>
        if !p.isFinite then .throws .invalidArgument
        else if Fl.lt p (.fin 0) || Fl.gt p (.fin 1) then .throws .invalidArgument
        else .ok ())
      .ok r

end

end Verif.Topo
