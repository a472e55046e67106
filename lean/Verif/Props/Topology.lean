import Verif.Model.Topology
import Verif.Base.Check
import Mathlib.Tactic.Ring
import Mathlib.Tactic.Push
import Mathlib.Data.List.Nodup
import Mathlib.Data.List.Perm.Basic

/-!
# C32, C33, C34, C35: topologies
-/

set_option autoImplicit false

namespace Verif.Props

open Verif Topo

variable {K : Type} [Field K] [LinearOrder K]

/-- a finite weight in `[0, 1]` -/
def WOk (w : Fl K) : Prop := ∃ k : K, w = .fin k ∧ 0 ≤ k ∧ k ≤ 1

theorem wok_iff (w : Fl K) : WOk w ↔ w.isFinite = true ∧ Fl.lt w (.fin 0) = false ∧ Fl.gt w (.fin 1) = false := by
  cases w <;> simp [WOk, Fl.isFinite, Fl.lt, Fl.gt]

theorem checkWeight_chk (w : Fl K) : Chk (checkWeight w) (WOk w) := by
  unfold checkWeight
  refine (Chk.ite_throw (fun _ => Chk.ite_throw (fun _ => Chk.pass))).congr ?_
  rw [wok_iff]
  simp

/-- `m` succeeds exactly if `P`, then with state `g'`; otherwise it throws and leaves the state alone. -/
def Does {σ : Type} (m : Run σ Unit) (g : σ) (P : Prop) (g' : σ) : Prop :=
  (P ∧ m g = (.ok (), g')) ∨ (¬ P ∧ m g = (.throws .invalidArgument, g))

omit [Field K] [LinearOrder K] in
theorem checkVertices_does (is : List Nat) (g : Graph K) : Does (checkVertices is) g (∀ i ∈ is, i < g.nv) g := by
  induction is with
  | nil => exact Or.inl ⟨by simp, rfl⟩
  | cons i is ih =>
    have e : checkVertices (i :: is) g = if i ≥ g.nv then (.throws .invalidArgument, g) else checkVertices is g := by
      show (if i ≥ g.nv then (Run.throw .invalidArgument : Run (Graph K) Unit) else checkVertices is) g = _
      split <;> rfl
    by_cases h : i ≥ g.nv
    · exact Or.inr ⟨fun h' => by have := h' i (by simp); omega, by rw [e, if_pos h]⟩
    · rcases ih with ⟨h1, h2⟩ | ⟨h1, h2⟩
      · refine Or.inl ⟨?_, by rw [e, if_neg h, h2]⟩
        intro j hj
        rcases List.mem_cons.mp hj with rfl | hj
        · omega
        · exact h1 j hj
      · exact Or.inr ⟨fun h' => h1 (fun j hj => h' j (by simp [hj])), by rw [e, if_neg h, h2]⟩

theorem bind_of_ok {σ α β : Type} {m : Run σ α} {f : α → Run σ β} {s s' : σ} {a : α} (h : m s = (.ok a, s')) :
    (m >>= f) s = f a s' := by
  show Run.bind m f s = _
  unfold Run.bind; rw [h]

theorem bind_of_throws {σ α β : Type} {m : Run σ α} {f : α → Run σ β} {s s' : σ} {e : Exn}
    (h : m s = (.throws e, s')) : (m >>= f) s = (.throws e, s') := by
  show Run.bind m f s = _
  unfold Run.bind; rw [h]

/-- there is an edge from `i` to `j` -/
def HasEdge (g : Graph K) (i j : Nat) : Prop := ∃ w, (i, j, w) ∈ g.edges

omit [Field K] [LinearOrder K] in
theorem joins_iff {i j : Nat} {e : Nat × Nat × Fl K} : joins i j e = true ↔ e = (i, j, e.2.2) := by
  obtain ⟨a, b, w⟩ := e
  simp [joins]

omit [Field K] [LinearOrder K] in
theorem any_joins {g : Graph K} {i j : Nat} : g.edges.any (joins i j) = true ↔ HasEdge g i j := by
  rw [List.any_eq_true]
  constructor
  · rintro ⟨e, h1, h2⟩
    exact ⟨e.2.2, by rw [joins_iff] at h2; rw [← h2]; exact h1⟩
  · rintro ⟨w, h⟩
    exact ⟨_, h, by simp [joins]⟩

omit [Field K] [LinearOrder K] in
theorem areAdjacent_eq (g : Graph K) (i j : Nat) :
    ((i < g.nv ∧ j < g.nv) ∧ areAdjacent i j g = (.ok (g.edges.any (joins i j)), g)) ∨
    (¬ (i < g.nv ∧ j < g.nv) ∧ areAdjacent i j g = (.throws .invalidArgument, g)) := by
  rcases checkVertices_does [i, j] g with ⟨h1, h2⟩ | ⟨h1, h2⟩
  · exact Or.inl ⟨by simpa using h1, by unfold areAdjacent; rw [bind_of_ok h2]; rfl⟩
  · exact Or.inr ⟨by simpa using h1, by unfold areAdjacent; rw [bind_of_throws h2]⟩

theorem lift_check {o : Outcome Unit} {P : Prop} (h : Chk o P) (g : Graph K) :
    (P ∧ (Run.lift o : Run (Graph K) Unit) g = (.ok (), g)) ∨
    (¬ P ∧ (Run.lift o : Run (Graph K) Unit) g = (.throws .invalidArgument, g)) := by
  rcases h with ⟨h1, h2⟩ | ⟨h1, h2⟩
  · exact Or.inl ⟨h2, by rw [h1]; rfl⟩
  · exact Or.inr ⟨h2, by rw [h1]; rfl⟩

theorem addEdge_does (g : Graph K) (i j : Nat) (w : Fl K) :
    Does (addEdge i j w) g (WOk w ∧ i < g.nv ∧ j < g.nv ∧ ¬ HasEdge g i j)
      { g with edges := g.edges ++ [(i, j, w)] } := by
  unfold addEdge
  rcases lift_check (checkWeight_chk w) g with ⟨h1, h2⟩ | ⟨h1, h2⟩
  · rcases areAdjacent_eq g i j with ⟨h3, h4⟩ | ⟨h3, h4⟩
    · cases ha : g.edges.any (joins i j)
      · have : ¬ HasEdge g i j := by rw [← any_joins, ha]; simp
        refine Or.inl ⟨⟨h1, h3.1, h3.2, this⟩, ?_⟩
        rw [bind_of_ok h2, bind_of_ok h4, ha]; rfl
      · have : HasEdge g i j := by rw [← any_joins, ha]
        refine Or.inr ⟨fun h => h.2.2.2 this, ?_⟩
        rw [bind_of_ok h2, bind_of_ok h4, ha]; rfl
    · refine Or.inr ⟨fun h => h3 ⟨h.2.1, h.2.2.1⟩, ?_⟩
      rw [bind_of_ok h2, bind_of_throws h4]
  · exact Or.inr ⟨fun h => h1 h.1, by rw [bind_of_throws h2]⟩

omit [Field K] [LinearOrder K] in
theorem removeEdge_does (g : Graph K) (i j : Nat) :
    Does (removeEdge i j) g (i < g.nv ∧ j < g.nv ∧ HasEdge g i j)
      { g with edges := g.edges.filter (fun e => !joins i j e) } := by
  unfold removeEdge
  rcases areAdjacent_eq g i j with ⟨h3, h4⟩ | ⟨h3, h4⟩
  · cases ha : g.edges.any (joins i j)
    · have : ¬ HasEdge g i j := by rw [← any_joins, ha]; simp
      refine Or.inr ⟨fun h => this h.2.2, ?_⟩
      rw [bind_of_ok h4, ha]; rfl
    · have : HasEdge g i j := by rw [← any_joins, ha]
      refine Or.inl ⟨⟨h3.1, h3.2, this⟩, ?_⟩
      rw [bind_of_ok h4, ha]; rfl
  · refine Or.inr ⟨fun h => h3 ⟨h.1, h.2.1⟩, ?_⟩
    rw [bind_of_throws h4]

theorem setAllWeights_does (g : Graph K) (w : Fl K) :
    Does (setAllWeights w) g (WOk w) { g with edges := g.edges.map (fun e => (e.1, e.2.1, w)) } := by
  unfold setAllWeights
  rcases lift_check (checkWeight_chk w) g with ⟨h1, h2⟩ | ⟨h1, h2⟩
  · exact Or.inl ⟨h1, by rw [bind_of_ok h2]; rfl⟩
  · exact Or.inr ⟨h1, by rw [bind_of_throws h2]⟩

omit [Field K] [LinearOrder K] in
theorem find_joins {g : Graph K} {i j : Nat} :
    (∃ w, g.edges.find? (joins i j) = some (i, j, w) ∧ (i, j, w) ∈ g.edges) ∨
    (g.edges.find? (joins i j) = none ∧ ¬ HasEdge g i j) := by
  cases h : g.edges.find? (joins i j) with
  | none =>
    refine Or.inr ⟨rfl, ?_⟩
    rintro ⟨w, hw⟩
    have := List.find?_eq_none.mp h _ hw
    simp [joins] at this
  | some e =>
    have h1 := List.find?_some h
    have h2 := List.mem_of_find?_eq_some h
    rw [joins_iff] at h1
    exact Or.inl ⟨e.2.2, by rw [← h1], by rw [← h1]; exact h2⟩

theorem setWeight_does (g : Graph K) (i j : Nat) (w : Fl K) :
    Does (setWeight i j w) g (WOk w ∧ i < g.nv ∧ j < g.nv ∧ HasEdge g i j)
      { g with edges := setFirst i j w g.edges } := by
  unfold setWeight
  rcases lift_check (checkWeight_chk w) g with ⟨h1, h2⟩ | ⟨h1, h2⟩
  · rcases checkVertices_does [i, j] g with ⟨h3, h4⟩ | ⟨h3, h4⟩
    · have h3 : i < g.nv ∧ j < g.nv := by simpa using h3
      rcases find_joins (g := g) (i := i) (j := j) with ⟨w', h5, h6⟩ | ⟨h5, h6⟩
      · refine Or.inl ⟨⟨h1, h3.1, h3.2, w', h6⟩, ?_⟩
        rw [bind_of_ok h2, bind_of_ok h4, bind_of_ok (m := Run.get) (a := g) (s' := g) rfl, h5]; rfl
      · refine Or.inr ⟨fun h => h6 h.2.2.2, ?_⟩
        rw [bind_of_ok h2, bind_of_ok h4, bind_of_ok (m := Run.get) (a := g) (s' := g) rfl, h5]; rfl
    · refine Or.inr ⟨fun h => h3 (by simp; exact ⟨h.2.1, h.2.2.1⟩), ?_⟩
      rw [bind_of_ok h2, bind_of_throws h4]
  · exact Or.inr ⟨fun h => h1 h.1, by rw [bind_of_throws h2]⟩

/-- A well-formed graph topology: edges between existing vertices, at most one per ordered pair, weights in `[0, 1]`. -/
structure GoodGraph (g : Graph K) : Prop where
  ends : ∀ e ∈ g.edges, e.1 < g.nv ∧ e.2.1 < g.nv
  weights : ∀ e ∈ g.edges, WOk e.2.2
  simple : (g.edges.map (fun e => (e.1, e.2.1))).Nodup

omit [Field K] [LinearOrder K] in
theorem setFirst_pairs (i j : Nat) (w : Fl K) (l : List (Nat × Nat × Fl K)) :
    (setFirst i j w l).map (fun e => (e.1, e.2.1)) = l.map (fun e => (e.1, e.2.1)) := by
  induction l with
  | nil => rfl
  | cons e es ih =>
    rw [setFirst]
    split
    · rename_i h
      rw [joins_iff] at h
      rw [h]; rfl
    · simp [ih]

omit [Field K] [LinearOrder K] in
theorem setFirst_mem {i j : Nat} {w : Fl K} {l : List (Nat × Nat × Fl K)} {e : Nat × Nat × Fl K}
    (h : e ∈ setFirst i j w l) : e = (i, j, w) ∨ e ∈ l := by
  induction l with
  | nil => simp [setFirst] at h
  | cons a es ih =>
    rw [setFirst] at h
    split at h
    · rcases List.mem_cons.mp h with h | h
      · exact Or.inl h
      · exact Or.inr (by simp [h])
    · rcases List.mem_cons.mp h with h | h
      · exact Or.inr (by simp [h])
      · rcases ih h with h | h
        · exact Or.inl h
        · exact Or.inr (by simp [h])

omit [Field K] [LinearOrder K] in
theorem getConnections_run (g : Graph K) (i : Nat) :
    (i < g.nv ∧ ∃ ws, (sources g i).mapM (weightTo g i) = .ok ws ∧ getConnections i g = (.ok (sources g i, ws), g)) ∨
    (¬ i < g.nv ∧ getConnections i g = (.throws .invalidArgument, g)) := by
  unfold getConnections
  rcases checkVertices_does [i] g with ⟨h3, h4⟩ | ⟨h3, h4⟩
  · left
    refine ⟨by simpa using h3, ?_⟩
    have : ∀ j ∈ sources g i, weightTo g i j = .ok ((fun j => match g.edges.find? (joins j i) with
        | some e => e.2.2
        | none => .nan) j) := by
      intro j hj
      simp only [sources, List.mem_map, List.mem_filter, beq_iff_eq] at hj
      obtain ⟨⟨a, b, w⟩, ⟨h5, h6⟩, h7⟩ := hj
      simp only at h6 h7
      subst h6 h7
      rcases find_joins (g := g) (i := a) (j := b) with ⟨w', h8, _⟩ | ⟨_, h8⟩
      · simp only [weightTo, h8]
      · exact absurd ⟨w, h5⟩ h8
    have hm := Outcome.mapM_ok _ _ this
    refine ⟨_, hm, ?_⟩
    rw [bind_of_ok h4, bind_of_ok (m := Run.get) (a := g) (s' := g) rfl]
    simp only [hm]
    rfl
  · exact Or.inr ⟨by simpa using h3, by rw [bind_of_throws h4]⟩

/-- Every call either leaves the state as it is and throws, or succeeds. -/
theorem call_run (c : Call K) (g : Graph K) :
    (∃ g', c.run g = (.ok (), g')) ∨ c.run g = (.throws .invalidArgument, g) := by
  have does : ∀ {m : Run (Graph K) Unit} {P : Prop} {g' : Graph K}, Does m g P g' →
      (∃ g', m g = (.ok (), g')) ∨ m g = (.throws .invalidArgument, g) := by
    intro m P g' h
    rcases h with ⟨_, h⟩ | ⟨_, h⟩
    · exact Or.inl ⟨_, h⟩
    · exact Or.inr h
  cases c with
  | addVertex => exact Or.inl ⟨_, rfl⟩
  | addEdge i j w => exact does (addEdge_does g i j w)
  | removeEdge i j => exact does (removeEdge_does g i j)
  | setWeight i j w => exact does (setWeight_does g i j w)
  | setAllWeights w => exact does (setAllWeights_does g w)
  | getConnections i =>
    unfold Call.run
    rcases getConnections_run g i with ⟨_, ws, _, h⟩ | ⟨_, h⟩
    · exact Or.inl ⟨g, by simp only; rw [bind_of_ok h]; rfl⟩
    · exact Or.inr (by simp only; rw [bind_of_throws h])
  | areAdjacent i j =>
    unfold Call.run
    rcases areAdjacent_eq g i j with ⟨h3, h4⟩ | ⟨h3, h4⟩
    · exact Or.inl ⟨g, by simp only; rw [bind_of_ok h4]; rfl⟩
    · exact Or.inr (by simp only; rw [bind_of_throws h4])

/-- C34 (exceptions). A call on any graph topology either succeeds or throws `std::invalid_argument`; if it throws,
the graph is unchanged. -/
theorem C34_strong_guarantee (c : Call K) (g : Graph K) :
    (c.run g).1 = .ok () ∨ (c.run g).1 = .throws .invalidArgument ∧ (c.run g).2 = g := by
  rcases call_run c g with ⟨g', h⟩ | h <;> simp [h]

theorem call_good (c : Call K) {g : Graph K} (h : GoodGraph g) : GoodGraph (c.run g).2 := by
  have does : ∀ {m : Run (Graph K) Unit} {P : Prop} {g' : Graph K}, Does m g P g' → (P → GoodGraph g') →
      GoodGraph (m g).2 := by
    intro m P g' hd hg
    rcases hd with ⟨hp, e⟩ | ⟨_, e⟩
    · rw [e]; exact hg hp
    · rw [e]; exact h
  cases c with
  | addVertex =>
    exact ⟨fun e he => by
      have := h.ends e he
      show e.1 < g.nv + 1 ∧ e.2.1 < g.nv + 1
      omega, h.weights, h.simple⟩
  | addEdge i j w =>
    refine does (addEdge_does g i j w) (fun hp => ⟨?_, ?_, ?_⟩)
    · intro e he
      rcases List.mem_append.mp he with he | he
      · exact h.ends e he
      · simp at he; subst he; exact ⟨hp.2.1, hp.2.2.1⟩
    · intro e he
      rcases List.mem_append.mp he with he | he
      · exact h.weights e he
      · simp at he; subst he; exact hp.1
    · simp only [List.map_append, List.map_cons, List.map_nil]
      rw [List.nodup_append]
      refine ⟨h.simple, by simp, ?_⟩
      intro a ha b hb e
      simp at hb
      subst hb e
      rw [List.mem_map] at ha
      obtain ⟨⟨x, y, z⟩, h1, h2⟩ := ha
      simp only [Prod.mk.injEq] at h2
      exact hp.2.2.2 ⟨z, by rw [← h2.1, ← h2.2]; exact h1⟩
  | removeEdge i j =>
    refine does (removeEdge_does g i j) (fun _ => ⟨?_, ?_, ?_⟩)
    · intro e he; exact h.ends e (List.mem_of_mem_filter he)
    · intro e he; exact h.weights e (List.mem_of_mem_filter he)
    · exact h.simple.sublist (List.Sublist.map _ List.filter_sublist)
  | setWeight i j w =>
    refine does (setWeight_does g i j w) (fun hp => ⟨?_, ?_, ?_⟩)
    · intro e he
      rcases setFirst_mem he with rfl | he
      · exact ⟨hp.2.1, hp.2.2.1⟩
      · exact h.ends e he
    · intro e he
      rcases setFirst_mem he with rfl | he
      · exact hp.1
      · exact h.weights e he
    · show ((setFirst i j w g.edges).map _).Nodup
      rw [setFirst_pairs]; exact h.simple
  | setAllWeights w =>
    refine does (setAllWeights_does g w) (fun hp => ⟨?_, ?_, ?_⟩)
    · intro e he
      simp only [List.mem_map] at he
      obtain ⟨e', h1, rfl⟩ := he
      exact h.ends e' h1
    · intro e he
      simp only [List.mem_map] at he
      obtain ⟨e', h1, rfl⟩ := he
      exact hp
    · simp only [List.map_map]; exact h.simple
  | getConnections i =>
    unfold Call.run
    rcases getConnections_run g i with ⟨_, ws, _, h'⟩ | ⟨_, h'⟩
    · simp only; rw [bind_of_ok h']; exact h
    · simp only; rw [bind_of_throws h']; exact h
  | areAdjacent i j =>
    unfold Call.run
    rcases areAdjacent_eq g i j with ⟨h3, h4⟩ | ⟨h3, h4⟩
    · simp only; rw [bind_of_ok h4]; exact h
    · simp only; rw [bind_of_throws h4]; exact h

/-- C34 (invariant). Whatever calls are made, with whatever arguments, on a well-formed graph topology (for instance
an empty one), it stays well-formed. -/
theorem C34_invariant (cs : List (Call K)) (g : Graph K) (h : GoodGraph g) : GoodGraph (history cs g) := by
  unfold history
  induction cs generalizing g with
  | nil => exact h
  | cons c cs ih => exact ih _ (call_good c h)

omit [LinearOrder K] [Field K] in
theorem simple_find {g : Graph K} (hn : (g.edges.map (fun e => (e.1, e.2.1))).Nodup) {i j : Nat} {w : Fl K}
    (h : (i, j, w) ∈ g.edges) : g.edges.find? (joins i j) = some (i, j, w) := by
  rcases find_joins (g := g) (i := i) (j := j) with ⟨w', h1, h2⟩ | ⟨_, h1⟩
  · rw [h1]
    have := List.inj_on_of_nodup_map hn h h2 rfl
    rw [this]
  · exact absurd ⟨w, h⟩ h1

/-- C34 (`get_connections`). On a well-formed graph `get_connections(i)` lists every vertex with an edge into `i`
exactly once, together with the weight of that edge; it throws if `i` is not a vertex. -/
theorem C34_get_connections (g : Graph K) (h : GoodGraph g) (i : Nat) :
    (i < g.nv → ∃ srcs ws, getConnections i g = (.ok (srcs, ws), g) ∧ srcs.length = ws.length ∧ srcs.Nodup ∧
      ∀ j w, (j, w) ∈ srcs.zip ws ↔ (j, i, w) ∈ g.edges) ∧
    (¬ i < g.nv → getConnections i g = (.throws .invalidArgument, g)) := by
  constructor
  · intro hi
    let es := g.edges.filter (fun e => e.2.1 == i)
    have hes : ∀ e ∈ es, e ∈ g.edges ∧ e.2.1 = i := by
      intro e he; simpa [es, List.mem_filter] using he
    have hm : (sources g i).mapM (weightTo g i) = .ok (es.map (fun e => e.2.2)) := by
      show (es.map (fun e => e.1)).mapM (weightTo g i) = _
      generalize es = l at hes
      induction l with
      | nil => rfl
      | cons e l ih =>
        obtain ⟨a, b, w⟩ := e
        have he := hes (a, b, w) (by simp)
        simp only at he
        obtain ⟨he1, rfl⟩ := he
        simp only [List.map_cons, List.mapM_cons, weightTo]
        rw [simple_find h.simple he1]
        have := ih (fun e he => hes e (by simp [he]))
        simp only [this]
        rfl
    have hrun : getConnections i g = (.ok (sources g i, es.map (fun e => e.2.2)), g) := by
      rcases getConnections_run g i with ⟨_, ws, h1, h2⟩ | ⟨h1, _⟩
      · rw [hm] at h1; cases h1; exact h2
      · exact absurd hi h1
    refine ⟨es.map (fun e => e.1), es.map (fun e => e.2.2), by rw [hrun]; rfl, by simp, ?_, ?_⟩
    · have : (es.map (fun e => (e.1, e.2.1))).Nodup := h.simple.sublist (List.Sublist.map _ List.filter_sublist)
      have h2 : es.map (fun e => (e.1, e.2.1)) = (es.map (fun e => e.1)).map (fun a => (a, i)) := by
        rw [List.map_map]
        apply List.map_congr_left
        intro e he
        simp [(hes e he).2]
      rw [h2] at this
      exact List.Nodup.of_map _ this
    · intro j w
      rw [List.zip_map', List.mem_map]
      constructor
      · rintro ⟨⟨a, b, c⟩, h1, h2⟩
        simp only [Prod.mk.injEq] at h2
        obtain ⟨h3, h5⟩ := hes _ h1
        simp only at h5
        rw [← h2.1, ← h2.2, ← h5]; exact h3
      · intro hj
        exact ⟨_, by simp only [es, List.mem_filter]; exact ⟨hj, by simp⟩, rfl⟩
  · intro hi
    rcases getConnections_run g i with ⟨h1, _⟩ | ⟨_, h1⟩
    · exact absurd h1 hi
    · exact h1

/-- C34 (effects). When the four editing calls succeed, and what they then do to the set of weighted edges. -/
theorem C34_effects (g : Graph K) (h : GoodGraph g) (i j : Nat) (w : Fl K) :
    (((addEdge i j w g).1 = .ok () ↔ WOk w ∧ i < g.nv ∧ j < g.nv ∧ ∀ v, (i, j, v) ∉ g.edges) ∧
      ((addEdge i j w g).1 = .ok () → ∀ e, e ∈ (addEdge i j w g).2.edges ↔ e ∈ g.edges ∨ e = (i, j, w))) ∧
    (((removeEdge i j g).1 = .ok () ↔ ∃ v, (i, j, v) ∈ g.edges) ∧
      ((removeEdge i j g).1 = .ok () → ∀ e, e ∈ (removeEdge i j g).2.edges ↔
        e ∈ g.edges ∧ ¬ (e.1 = i ∧ e.2.1 = j))) ∧
    (((setWeight i j w g).1 = .ok () ↔ WOk w ∧ ∃ v, (i, j, v) ∈ g.edges) ∧
      ((setWeight i j w g).1 = .ok () → ∀ e, e ∈ (setWeight i j w g).2.edges ↔
        e ∈ g.edges ∧ ¬ (e.1 = i ∧ e.2.1 = j) ∨ e = (i, j, w))) ∧
    (((setAllWeights w g).1 = .ok () ↔ WOk w) ∧
      ((setAllWeights w g).1 = .ok () → ∀ e, e ∈ (setAllWeights w g).2.edges ↔
        e.2.2 = w ∧ ∃ v, (e.1, e.2.1, v) ∈ g.edges)) ∧
    (addEdge i j w g).2.nv = g.nv ∧ (removeEdge i j g).2.nv = g.nv ∧ (setWeight i j w g).2.nv = g.nv ∧
    (setAllWeights w g).2.nv = g.nv := by
  refine ⟨?_, ?_, ?_, ?_, ?_, ?_, ?_, ?_⟩
  · rcases addEdge_does g i j w with ⟨h1, h2⟩ | ⟨h1, h2⟩
    · rw [h2]
      refine ⟨by simp only [true_iff]; exact ⟨h1.1, h1.2.1, h1.2.2.1, fun v hv => h1.2.2.2 ⟨v, hv⟩⟩, ?_⟩
      intro _ e; simp
    · rw [h2]
      refine ⟨by simp only [reduceCtorEq, false_iff]; exact fun h => h1 ⟨h.1, h.2.1, h.2.2.1, fun ⟨v, hv⟩ => h.2.2.2 v hv⟩, ?_⟩
      intro h; simp at h
  · rcases removeEdge_does g i j with ⟨h1, h2⟩ | ⟨h1, h2⟩
    · rw [h2]
      refine ⟨by simp only [true_iff]; exact h1.2.2, ?_⟩
      intro _ e
      simp [List.mem_filter, joins, imp_iff_not_or]
    · rw [h2]
      refine ⟨?_, fun h => by simp at h⟩
      simp only [reduceCtorEq, false_iff]
      rintro ⟨v, hv⟩
      have := h.ends _ hv
      exact h1 ⟨this.1, this.2, v, hv⟩
  · rcases setWeight_does g i j w with ⟨h1, h2⟩ | ⟨h1, h2⟩
    · rw [h2]
      refine ⟨by simp only [true_iff]; exact ⟨h1.1, h1.2.2.2⟩, ?_⟩
      intro _ e
      show e ∈ setFirst i j w g.edges ↔ _
      obtain ⟨v, hv⟩ := h1.2.2.2
      have hs := h.simple
      generalize g.edges = l at hs hv
      induction l with
      | nil => simp at hv
      | cons a l ih =>
        rw [setFirst]
        simp only [List.map_cons, List.nodup_cons, List.mem_map, not_exists, not_and] at hs
        split
        · rename_i ha
          rw [joins_iff] at ha
          have hno : ∀ e ∈ l, ¬ (e.1 = i ∧ e.2.1 = j) := by
            rintro e he ⟨h3, h4⟩
            apply hs.1 e he
            rw [ha, h3, h4]
          have ha1 : a.1 = i ∧ a.2.1 = j := by rw [ha]; simp
          simp only [List.mem_cons]
          constructor
          · rintro (h3 | h3)
            · exact Or.inr h3
            · exact Or.inl ⟨Or.inr h3, hno e h3⟩
          · rintro (⟨h3 | h3, h4⟩ | h3)
            · subst h3; exact absurd ha1 h4
            · exact Or.inr h3
            · exact Or.inl h3
        · rename_i ha
          have ha1 : ¬ (a.1 = i ∧ a.2.1 = j) := by simpa [joins] using ha
          have hv' : (i, j, v) ∈ l := by
            rcases List.mem_cons.mp hv with h3 | h3
            · exfalso; apply ha1; rw [← h3]; simp
            · exact h3
          simp only [List.mem_cons]
          refine Iff.trans (or_congr Iff.rfl (ih hs.2 hv')) ?_
          constructor
          · rintro (h3 | ⟨h3, h4⟩ | h3)
            · subst h3; exact Or.inl ⟨Or.inl rfl, ha1⟩
            · exact Or.inl ⟨Or.inr h3, h4⟩
            · exact Or.inr h3
          · rintro (⟨h3 | h3, h4⟩ | h3)
            · exact Or.inl h3
            · exact Or.inr (Or.inl ⟨h3, h4⟩)
            · exact Or.inr (Or.inr h3)
    · rw [h2]
      refine ⟨?_, fun h => by simp at h⟩
      simp only [reduceCtorEq, false_iff]
      rintro ⟨hw, v, hv⟩
      have := h.ends _ hv
      exact h1 ⟨hw, this.1, this.2, v, hv⟩
  · rcases setAllWeights_does g w with ⟨h1, h2⟩ | ⟨h1, h2⟩
    · rw [h2]
      refine ⟨by simp [h1], ?_⟩
      rintro _ ⟨a, b, c⟩
      simp only [List.mem_map, Prod.mk.injEq, Prod.exists]
      constructor
      · rintro ⟨a', b', c', h3, rfl, rfl, rfl⟩
        exact ⟨rfl, c', h3⟩
      · rintro ⟨rfl, v, hv⟩
        exact ⟨a, b, v, hv, rfl, rfl, rfl⟩
    · rw [h2]
      exact ⟨by simp [h1], fun h => by simp at h⟩
  · rcases addEdge_does g i j w with ⟨h1, h2⟩ | ⟨h1, h2⟩ <;> rw [h2]
  · rcases removeEdge_does g i j with ⟨h1, h2⟩ | ⟨h1, h2⟩ <;> rw [h2]
  · rcases setWeight_does g i j w with ⟨h1, h2⟩ | ⟨h1, h2⟩ <;> rw [h2]
  · rcases setAllWeights_does g w with ⟨h1, h2⟩ | ⟨h1, h2⟩ <;> rw [h2]

/-- C34 (construction from a graph). `free_form` accepts exactly the graphs with all weights finite and in `[0, 1]`. -/
theorem C34_free_form (g : Graph K) :
    (freeForm g = .ok g ↔ ∀ e ∈ g.edges, WOk e.2.2) ∧
    (freeForm g ≠ .ok g → freeForm g = .throws .invalidArgument) := by
  have hc : Chk (g.edges.forM (fun e =>
      if !e.2.2.isFinite || Fl.lt e.2.2 (.fin 0) || Fl.gt e.2.2 (.fin 1) then
        (.throws .invalidArgument : Outcome Unit) else .ok ()))
      (∀ e ∈ g.edges, WOk e.2.2) := by
    apply Chk.forM
    intro e he
    refine (Chk.ite_throw (fun _ => Chk.pass)).congr ?_
    rw [wok_iff]
    simp [and_assoc]
  unfold freeForm
  rcases hc with ⟨h1, h2⟩ | ⟨h1, h2⟩
  · rw [h1]
    exact ⟨⟨fun _ => h2, fun _ => rfl⟩, fun h => absurd rfl h⟩
  · rw [h1]
    refine ⟨?_, fun _ => rfl⟩
    constructor
    · intro h; cases h
    · intro h; exact absurd h h2

/-- A graph with two parallel edges. -/
def parallelGraph : Graph ℚ := ⟨2, [(0, 1, .fin 1), (0, 1, .fin 0)]⟩

/-- C34 (finding). `free_form` accepts a graph with parallel edges, and `get_connections` then lists the same island
twice, both times with the weight of the first edge: the "at most one edge" part of the invariant can be broken by
the constructor. -/
theorem C34_parallel_edges : freeForm parallelGraph = .ok parallelGraph ∧
    getConnections 1 parallelGraph = (.ok ([0, 0], [.fin 1, .fin 1]), parallelGraph) ∧ ¬ GoodGraph parallelGraph := by
  refine ⟨?_, ?_, ?_⟩
  · rw [(C34_free_form _).1]
    intro e he
    simp [parallelGraph] at he
    rcases he with rfl | rfl
    · exact ⟨1, rfl, by decide, by decide⟩
    · exact ⟨0, rfl, by decide, by decide⟩
  · have h : (getConnections 1 parallelGraph).1 = .ok ([0, 0], [.fin 1, .fin 1]) := by decide +kernel
    rcases hg : getConnections 1 parallelGraph with ⟨o, g⟩
    have h2 : (getConnections 1 parallelGraph).2 = parallelGraph := rfl
    rw [hg] at h h2
    simp only at h h2
    rw [h, h2]
  · intro h
    have := h.simple
    revert this
    decide

/-- an empty graph is well-formed, so C34_invariant applies to it -/
theorem good_empty : GoodGraph (⟨0, []⟩ : Graph K) := ⟨by simp, by simp, by simp⟩

example : (history [.addVertex, .addVertex, .addEdge 0 1 (.fin (1/2 : ℚ)), .addEdge 0 1 (.fin 1), .addEdge 0 2 (.fin 1),
    .addEdge 1 0 (.fin 2), .setWeight 0 1 (.fin (1/4))] ⟨0, []⟩).edges = [(0, 1, .fin (1/4))] := by decide +kernel

/-! ## Ring -/

/-- neighbours on a ring with `n` vertices (no self loops), without modular arithmetic -/
def RingAdj (n a b : Nat) : Prop :=
  a < n ∧ b < n ∧ a ≠ b ∧ (a + 1 = b ∨ b + 1 = a ∨ (a = 0 ∧ b + 1 = n) ∨ (b = 0 ∧ a + 1 = n))

/-- `g` has `n` vertices, and one edge of weight `w` for each pair related by `S` -/
structure Rep (g : Graph K) (n : Nat) (w : Fl K) (S : Nat → Nat → Prop) : Prop where
  good : GoodGraph g
  nv : g.nv = n
  adj : ∀ a b, HasEdge g a b ↔ S a b
  weight : ∀ e ∈ g.edges, e.2.2 = w

theorem rep_add {g : Graph K} {n : Nat} {w : Fl K} {S : Nat → Nat → Prop} (hw : WOk w) (h : Rep g n w S) {i j : Nat}
    (hi : i < n) (hj : j < n) (hS : ¬ S i j) : ∃ g', addEdge i j w g = (.ok (), g') ∧
      Rep g' n w (fun a b => S a b ∨ a = i ∧ b = j) := by
  have hg := call_good (.addEdge i j w) h.good
  rcases addEdge_does g i j w with ⟨h1, h2⟩ | ⟨h1, h2⟩
  · refine ⟨_, h2, ?_, h.nv, ?_, ?_⟩
    · rw [Call.run, h2] at hg; exact hg
    · intro a b
      rw [← h.adj]
      constructor
      · rintro ⟨v, hv⟩
        rcases List.mem_append.mp hv with hv | hv
        · exact Or.inl ⟨v, hv⟩
        · simp at hv; exact Or.inr ⟨hv.1, hv.2.1⟩
      · rintro (⟨v, hv⟩ | ⟨rfl, rfl⟩)
        · exact ⟨v, List.mem_append_left _ hv⟩
        · exact ⟨w, by simp⟩
    · intro e he
      rcases List.mem_append.mp he with he | he
      · exact h.weight e he
      · simp at he; rw [he]
  · exact absurd ⟨hw, by rw [h.nv]; exact hi, by rw [h.nv]; exact hj, by rw [h.adj]; exact hS⟩ h1

theorem rep_remove {g : Graph K} {n : Nat} {w : Fl K} {S : Nat → Nat → Prop} (h : Rep g n w S) {i j : Nat}
    (hi : i < n) (hj : j < n) (hS : S i j) : ∃ g', removeEdge i j g = (.ok (), g') ∧
      Rep g' n w (fun a b => S a b ∧ ¬ (a = i ∧ b = j)) := by
  have hg := call_good (.removeEdge i j) h.good
  rcases removeEdge_does g i j with ⟨h1, h2⟩ | ⟨h1, h2⟩
  · refine ⟨_, h2, ?_, h.nv, ?_, ?_⟩
    · rw [Call.run, h2] at hg; exact hg
    · intro a b
      rw [← h.adj]
      constructor
      · rintro ⟨v, hv⟩
        rw [List.mem_filter] at hv
        exact ⟨⟨v, hv.1⟩, by simpa [joins, imp_iff_not_or] using hv.2⟩
      · rintro ⟨⟨v, hv⟩, hn⟩
        exact ⟨v, List.mem_filter.mpr ⟨hv, by simpa [joins, imp_iff_not_or] using hn⟩⟩
    · intro e he; exact h.weight e (List.mem_of_mem_filter he)
  · exact absurd ⟨by rw [h.nv]; exact hi, by rw [h.nv]; exact hj, by rw [h.adj]; exact hS⟩ h1

theorem rep_congr {g : Graph K} {n : Nat} {w : Fl K} {S T : Nat → Nat → Prop} (h : Rep g n w S)
    (e : ∀ a b, S a b ↔ T a b) : Rep g n w T :=
  ⟨h.good, h.nv, fun a b => (h.adj a b).trans (e a b), h.weight⟩

theorem ring_push {g : Graph K} {n : Nat} {w : Fl K} (hw : WOk w) (h : Rep g n w (RingAdj n)) :
    ∃ g', ringPushBack w g = (.ok (), g') ∧ Rep g' (n + 1) w (RingAdj (n + 1)) := by
  have h0 : Rep ({ g with nv := g.nv + 1 } : Graph K) (n + 1) w (RingAdj n) := by
    have := call_good .addVertex h.good
    exact ⟨this, by simp [h.nv], h.adj, h.weight⟩
  have hn : ({ g with nv := g.nv + 1 } : Graph K).nv = n + 1 := by simp [h.nv]
  unfold ringPushBack
  rw [bind_of_ok (m := addVertex) (a := ()) (s' := { g with nv := g.nv + 1 }) rfl]
  rw [bind_of_ok (m := numVertices) (a := n + 1) (s' := { g with nv := g.nv + 1 })
    (by show (Outcome.ok (g.nv + 1), _) = _; rw [h.nv])]
  generalize ({ g with nv := g.nv + 1 } : Graph K) = g0 at h0
  rcases n with _ | _ | _ | m
  · refine ⟨g0, rfl, rep_congr h0 ?_⟩
    intro a b; unfold RingAdj; omega
  · obtain ⟨g1, e1, r1⟩ := rep_add hw h0 (i := 0) (j := 1) (by omega) (by omega) (by unfold RingAdj; omega)
    obtain ⟨g2, e2, r2⟩ := rep_add hw r1 (i := 1) (j := 0) (by omega) (by omega) (by unfold RingAdj; omega)
    refine ⟨g2, ?_, rep_congr r2 ?_⟩
    · show (addEdge 0 1 w >>= fun _ => addEdge 1 0 w) g0 = _
      rw [bind_of_ok e1]; exact e2
    · intro a b; unfold RingAdj; omega
  · obtain ⟨g1, e1, r1⟩ := rep_add hw h0 (i := 1) (j := 2) (by omega) (by omega) (by unfold RingAdj; omega)
    obtain ⟨g2, e2, r2⟩ := rep_add hw r1 (i := 2) (j := 1) (by omega) (by omega) (by unfold RingAdj; omega)
    obtain ⟨g3, e3, r3⟩ := rep_add hw r2 (i := 2) (j := 0) (by omega) (by omega) (by unfold RingAdj; omega)
    obtain ⟨g4, e4, r4⟩ := rep_add hw r3 (i := 0) (j := 2) (by omega) (by omega) (by unfold RingAdj; omega)
    refine ⟨g4, ?_, rep_congr r4 ?_⟩
    · show (addEdge 1 2 w >>= fun _ => addEdge 2 1 w >>= fun _ => addEdge 2 0 w >>= fun _ => addEdge 0 2 w) g0 = _
      rw [bind_of_ok e1, bind_of_ok e2, bind_of_ok e3]; exact e4
    · intro a b; unfold RingAdj; omega
  · obtain ⟨g1, e1, r1⟩ := rep_remove h0 (i := m + 2) (j := 0) (by omega) (by omega) (by unfold RingAdj; omega)
    obtain ⟨g2, e2, r2⟩ := rep_remove r1 (i := 0) (j := m + 2) (by omega) (by omega) (by unfold RingAdj; omega)
    obtain ⟨g3, e3, r3⟩ := rep_add hw r2 (i := m + 2) (j := m + 3) (by omega) (by omega) (by unfold RingAdj; omega)
    obtain ⟨g4, e4, r4⟩ := rep_add hw r3 (i := m + 3) (j := m + 2) (by omega) (by omega) (by unfold RingAdj; omega)
    obtain ⟨g5, e5, r5⟩ := rep_add hw r4 (i := 0) (j := m + 3) (by omega) (by omega) (by unfold RingAdj; omega)
    obtain ⟨g6, e6, r6⟩ := rep_add hw r5 (i := m + 3) (j := 0) (by omega) (by omega) (by unfold RingAdj; omega)
    refine ⟨g6, ?_, rep_congr r6 ?_⟩
    · show (removeEdge (m + 2) 0 >>= fun _ => removeEdge 0 (m + 2) >>= fun _ => addEdge (m + 2) (m + 3) w >>= fun _ =>
        addEdge (m + 3) (m + 2) w >>= fun _ => addEdge 0 (m + 3) w >>= fun _ => addEdge (m + 3) 0 w) g0 = _
      rw [bind_of_ok e1, bind_of_ok e2, bind_of_ok e3, bind_of_ok e4, bind_of_ok e5]; exact e6
    · intro a b; unfold RingAdj; omega

theorem ring_rep {w : Fl K} (hw : WOk w) (n : Nat) :
    ∃ g, ringPush w n ⟨0, []⟩ = (.ok (), g) ∧ Rep g n w (RingAdj n) := by
  induction n with
  | zero =>
    refine ⟨_, rfl, good_empty, rfl, ?_, by simp⟩
    intro a b
    unfold RingAdj HasEdge
    constructor
    · rintro ⟨v, hv⟩; simp at hv
    · omega
  | succ n ih =>
    obtain ⟨g, e, r⟩ := ih
    obtain ⟨g', e', r'⟩ := ring_push hw r
    exact ⟨g', by rw [ringPush, bind_of_ok e]; exact e', r'⟩

/-- C32. A ring of `n` vertices (built by the constructor or by `n` calls of `push_back`) with a valid weight: the
connections of `i` are its cyclic successor and predecessor, each listed once and with the configured weight, and
nothing else; there are two of them as soon as `n ≥ 3`, one if `n = 2`, none if `n = 1`. -/
theorem C32_ring (w : Fl K) (hw : WOk w) (n : Nat) : ∃ g, ring n w = .ok g ∧ g.nv = n ∧
    ∀ i < n, ∃ srcs, getConnections i g = (.ok (srcs, List.replicate srcs.length w), g) ∧ srcs.Nodup ∧
      (∀ j, j ∈ srcs ↔ j < n ∧ j ≠ i ∧ (j = (i + 1) % n ∨ i = (j + 1) % n)) ∧
      (3 ≤ n → srcs.length = 2) ∧ (n = 2 → srcs = [1 - i]) ∧ (n = 1 → srcs = []) := by
  obtain ⟨g, e, r⟩ := ring_rep hw n
  refine ⟨g, ?_, r.nv, ?_⟩
  · unfold ring
    rw [(checkWeight_chk w).ok_iff.mpr hw]
    simp [e]
  · intro i hi
    obtain ⟨srcs, ws, h1, h2, h3, h4⟩ := (C34_get_connections g r.good i).1 (by rw [r.nv]; exact hi)
    have hws : ws = List.replicate srcs.length w := by
      rw [h2, List.eq_replicate_iff]
      refine ⟨rfl, ?_⟩
      intro v hv
      obtain ⟨k, hk, rfl⟩ := List.mem_iff_getElem.mp hv
      have : (srcs[k]'(by omega), ws[k]) ∈ srcs.zip ws := by
        rw [List.mem_iff_getElem]
        exact ⟨k, by simp; omega, by simp⟩
      exact r.weight _ ((h4 _ _).mp this)
    have hmem : ∀ j, j ∈ srcs ↔ RingAdj n j i := by
      intro j
      rw [← r.adj]
      constructor
      · intro hj
        obtain ⟨k, hk, rfl⟩ := List.mem_iff_getElem.mp hj
        have : (srcs[k], ws[k]'(by omega)) ∈ srcs.zip ws := by
          rw [List.mem_iff_getElem]
          exact ⟨k, by simp; omega, by simp⟩
        exact ⟨_, (h4 _ _).mp this⟩
      · rintro ⟨v, hv⟩
        exact (List.of_mem_zip ((h4 _ _).mpr hv)).1
    have hmod : ∀ a b, a < n → (b = (a + 1) % n ↔ (a + 1 < n ∧ b = a + 1) ∨ (a + 1 = n ∧ b = 0)) := by
      intro a b ha
      by_cases h : a + 1 < n
      · rw [Nat.mod_eq_of_lt h]; omega
      · have : a + 1 = n := by omega
        rw [this, Nat.mod_self]; omega
    refine ⟨srcs, by rw [h1, hws], h3, ?_, ?_, ?_, ?_⟩
    · intro j
      rw [hmem]
      unfold RingAdj
      by_cases hj : j < n
      · rw [hmod i j hi, hmod j i hj]; omega
      · simp [hj]
    · intro hn
      have hp : srcs.Perm [if i + 1 = n then 0 else i + 1, if i = 0 then n - 1 else i - 1] := by
        rw [List.perm_ext_iff_of_nodup h3]
        · intro j
          rw [hmem]
          unfold RingAdj
          simp only [List.mem_cons, List.not_mem_nil, or_false]
          split <;> split <;> omega
        · simp only [List.nodup_cons, List.mem_singleton, List.not_mem_nil, not_false_eq_true, List.nodup_nil,
            and_true]
          split <;> split <;> omega
      rw [hp.length_eq]; rfl
    · intro hn
      have hp : srcs.Perm [1 - i] := by
        rw [List.perm_ext_iff_of_nodup h3 (by simp)]
        intro j
        rw [hmem]
        unfold RingAdj
        simp only [List.mem_singleton]
        omega
      exact List.perm_singleton.mp hp
    · intro hn
      rw [List.eq_nil_iff_forall_not_mem]
      intro j
      rw [hmem]
      unfold RingAdj
      omega

/-- C32 (weight). A ring with a weight that is not a finite number in `[0, 1]` is rejected. -/
theorem C32_bad_weight (w : Fl K) (hw : ¬ WOk w) (n : Nat) : ring n w = .throws .invalidArgument := by
  unfold ring
  rw [(checkWeight_chk w).throws_iff.mpr hw]
  rfl

example : (ring 5 (.fin (1/2 : ℚ))).bind (fun g => (getConnections 0 g).1) =
    .ok ([1, 4], [.fin (1/2), .fin (1/2)]) := by decide +kernel

/-! ## Fully connected -/

/-- C33. `n` vertices at construction and `m` more by `push_back`. -/
theorem C33_fully_connected (w : Fl K) (n m : Nat) :
    (WOk w → ∃ f, full n w = .ok f ∧ ∀ i,
      (i < n + m → ((Full.pushBack^[m]) f).getConnections i =
        .ok ((List.range (n + m)).filter (fun j => decide (j ≠ i)), List.replicate (n + m - 1) w)) ∧
      (n + m ≤ i → ((Full.pushBack^[m]) f).getConnections i = .throws .invalidArgument)) ∧
    (¬ WOk w → full n w = .throws .invalidArgument) := by
  constructor
  · intro hw
    refine ⟨⟨w, n⟩, by unfold full; rw [(checkWeight_chk w).ok_iff.mpr hw]; rfl, ?_⟩
    have hit : ∀ m, (Full.pushBack^[m]) (⟨w, n⟩ : Full K) = ⟨w, n + m⟩ := by
      intro m
      induction m with
      | zero => rfl
      | succ m ih => rw [Function.iterate_succ_apply', ih]; rfl
    rw [hit]
    generalize n + m = N
    intro i
    constructor
    · intro hi
      unfold Full.getConnections
      rw [if_neg (by simpa using hi)]
      simp only
      have h1 : ((List.range i).foldlM (fun l j => Outcome.set l j j) (List.replicate (N - 1) 0)).Sat
          (fun l => l = List.range i ++ List.replicate (N - 1 - i) 0) := by
        refine Outcome.range_sat (fun k l => l = List.range k ++ List.replicate (N - 1 - k) 0) i _ (by simp) ?_
        intro k l hk hl
        subst hl
        rw [Outcome.set_of_lt (by simp; omega)]
        simp only [Outcome.sat_ok]
        rw [List.set_append_right _ _ (by simp)]
        obtain ⟨d, hd⟩ : ∃ d, N - 1 - k = d + 1 := ⟨N - 1 - k - 1, by omega⟩
        have hd' : N - 1 - (k + 1) = d := by omega
        rw [hd, hd', List.range_succ, List.replicate_succ]
        simp
      obtain ⟨l1, e1, rfl⟩ := h1
      rw [e1]
      simp only [Outcome.bind_ok]
      have h2 : ∀ d s (pre : List Nat), s + 1 + d ≤ N → pre.length = s →
          (List.range' (s + 1) d).foldlM (fun l j => Outcome.set l (j - 1) j) (pre ++ List.replicate d 0) =
          .ok (pre ++ List.range' (s + 1) d) := by
        intro d
        induction d with
        | zero => intro s pre _ _; rfl
        | succ d ih =>
          intro s pre hs hp
          rw [List.range'_succ, List.foldlM_cons, Outcome.set_of_lt (by simp; omega), List.replicate_succ]
          simp only [Outcome.bind_ok, Nat.add_sub_cancel]
          rw [List.set_append_right _ _ (by omega), hp, Nat.sub_self, List.set_cons_zero]
          have := ih (s + 1) (pre ++ [s + 1]) (by omega) (by simp [hp])
          simp only [List.append_assoc, List.singleton_append] at this
          exact this
      have h3 := h2 (N - (i + 1)) i (List.range i) (by omega) (by simp)
      have h4 : N - 1 - i = N - (i + 1) := by omega
      rw [h4, h3]
      simp only [Outcome.bind_ok, Outcome.ok.injEq, Prod.mk.injEq, and_true]
      have h5 : List.range N = List.range i ++ i :: List.range' (i + 1) (N - (i + 1)) := by
        rw [List.range_eq_range', List.range_eq_range']
        have : N = i + (1 + (N - (i + 1))) := by omega
        conv_lhs => rw [this, ← List.range'_append_1, ← List.range'_append_1]
        simp
      rw [h5, List.filter_append, List.filter_cons]
      simp only [ne_eq, not_true_eq_false, decide_false, Bool.false_eq_true, if_false]
      congr 1
      · symm; rw [List.filter_eq_self]
        intro a ha; simp at ha; simp; omega
      · symm; rw [List.filter_eq_self]
        intro a ha; simp [List.mem_range'] at ha; simp; omega
    · intro hi
      unfold Full.getConnections
      rw [if_pos hi]
  · intro hw
    unfold full
    rw [(checkWeight_chk w).throws_iff.mpr hw]
    rfl

example : ((full 3 (.fin (1/2 : ℚ))).bind (fun f => f.pushBack.getConnections 1)) =
    .ok ([0, 2, 3], [.fin (1/2), .fin (1/2), .fin (1/2)]) := by decide +kernel

/-- C33 (conversion). The graph of a fully connected topology with a valid weight is well-formed and has exactly the
edges between different vertices, all with the configured weight, so `free_form` accepts it. -/
theorem C33_to_bgl (w : Fl K) (hw : WOk w) (n : Nat) :
    GoodGraph (Full.toBgl ⟨w, n⟩) ∧ (Full.toBgl ⟨w, n⟩ : Graph K).nv = n ∧
    ∀ e, e ∈ (Full.toBgl ⟨w, n⟩ : Graph K).edges ↔ e.1 < n ∧ e.2.1 < n ∧ e.1 ≠ e.2.1 ∧ e.2.2 = w := by
  have inner : ∀ (i : Nat) (l : List Nat) (g : Graph K),
      l.foldl (fun g j => if i = j then g else boostAddEdge g i j w) g =
      ⟨(l.filter (fun j => decide (i ≠ j))).foldl (fun n j => max n (max i j + 1)) g.nv,
        g.edges ++ (l.filter (fun j => decide (i ≠ j))).map (fun j => (i, j, w))⟩ := by
    intro i l
    induction l with
    | nil => intro g; simp
    | cons j l ih =>
      intro g
      rw [List.foldl_cons, ih]
      by_cases h : i = j
      · simp [h]
      · simp [h, boostAddEdge]
  have outer : ∀ (l : List Nat) (g : Graph K),
      (l.foldl (fun g i => (List.range n).foldl (fun g j => if i = j then g else boostAddEdge g i j w) g) g).edges =
      g.edges ++ l.flatMap (fun i => ((List.range n).filter (fun j => decide (i ≠ j))).map (fun j => (i, j, w))) := by
    intro l
    induction l with
    | nil => intro g; simp
    | cons i l ih =>
      intro g
      rw [List.foldl_cons, ih, inner]
      simp
  have maxb : ∀ (i b : Nat) (l : List Nat) (a : Nat), a ≤ b → i < b → (∀ j ∈ l, j < b) →
      l.foldl (fun n j => max n (max i j + 1)) a ≤ b := by
    intro i b l
    induction l with
    | nil => intro a h _ _; exact h
    | cons j l ih =>
      intro a h hi hl
      have := hl j (by simp)
      exact ih _ (by simp; omega) hi (fun k hk => hl k (by simp [hk]))
  have maxl : ∀ (i : Nat) (l : List Nat) (a : Nat), a ≤ l.foldl (fun n j => max n (max i j + 1)) a ∧
      ∀ j ∈ l, j < l.foldl (fun n j => max n (max i j + 1)) a := by
    intro i l
    induction l with
    | nil => intro a; simp
    | cons j l ih =>
      intro a
      have := ih (max a (max i j + 1))
      rw [List.foldl_cons]
      refine ⟨by omega, ?_⟩
      intro k hk
      rcases List.mem_cons.mp hk with rfl | hk
      · omega
      · exact this.2 k hk
  have outv : ∀ (l : List Nat) (g : Graph K), (∀ i ∈ l, i < n) → g.nv ≤ n →
      g.nv ≤ (l.foldl (fun g i => (List.range n).foldl (fun g j =>
        if i = j then g else boostAddEdge g i j w) g) g).nv ∧
      (l.foldl (fun g i => (List.range n).foldl (fun g j => if i = j then g else boostAddEdge g i j w) g) g).nv ≤ n := by
    intro l
    induction l with
    | nil => intro g _ h; exact ⟨le_refl _, h⟩
    | cons i l ih =>
      intro g hl hg
      rw [List.foldl_cons]
      have h1 := inner i (List.range n) g
      have h2 := maxb i n ((List.range n).filter (fun j => decide (i ≠ j))) g.nv hg (hl i (by simp))
        (fun j hj => by simp [List.mem_filter] at hj; exact hj.1)
      have h3 := (maxl i ((List.range n).filter (fun j => decide (i ≠ j))) g.nv).1
      have h4 := ih ((List.range n).foldl (fun g j => if i = j then g else boostAddEdge g i j w) g)
        (fun k hk => hl k (by simp [hk])) (by rw [h1]; exact h2)
      refine ⟨le_trans ?_ h4.1, h4.2⟩
      rw [h1]; exact h3
  have main : (Full.toBgl ⟨w, n⟩ : Graph K).nv = n ∧ (Full.toBgl ⟨w, n⟩ : Graph K).edges =
      (List.range n).flatMap (fun i => ((List.range n).filter (fun j => decide (i ≠ j))).map (fun j => (i, j, w))) := by
    unfold Full.toBgl
    rcases n with _ | _ | n
    · exact ⟨rfl, rfl⟩
    · exact ⟨rfl, rfl⟩
    · refine ⟨?_, ?_⟩
      · have h1 := outv (List.range (n + 2)) (⟨0, []⟩ : Graph K) (by simp; omega) (by simp)
        refine le_antisymm h1.2 ?_
        suffices ∀ l, l = List.range (n + 2) → n + 2 ≤ (l.foldl (fun g i => (List.range (n + 2)).foldl (fun g j =>
          if i = j then g else boostAddEdge g i j w) g) (⟨0, []⟩ : Graph K)).nv from this _ rfl
        intro l hl
        rw [List.range_eq_range', List.range'_succ] at hl
        subst hl
        rw [List.foldl_cons]
        have h3 := inner 0 (List.range (n + 2)) (⟨0, []⟩ : Graph K)
        have h4 := (maxl 0 ((List.range (n + 2)).filter (fun j => decide (0 ≠ j))) 0).2 (n + 1)
          (by simp [List.mem_filter])
        have h5 := maxb 0 (n + 2) ((List.range (n + 2)).filter (fun j => decide (0 ≠ j))) 0 (by omega) (by omega)
          (fun j hj => by simp [List.mem_filter] at hj; omega)
        have h6 := (outv (List.range' 1 (n + 1)) ((List.range (n + 2)).foldl (fun g j =>
          if 0 = j then g else boostAddEdge g 0 j w) (⟨0, []⟩ : Graph K))
          (fun i hi => by simp [List.mem_range'] at hi; omega) (by rw [h3]; exact h5)).1
        refine le_trans ?_ h6
        rw [h3]
        exact h4
      · have := outer (List.range (n + 2)) (⟨0, []⟩ : Graph K)
        simpa using this
  have hmem : ∀ e, e ∈ (Full.toBgl ⟨w, n⟩ : Graph K).edges ↔ e.1 < n ∧ e.2.1 < n ∧ e.1 ≠ e.2.1 ∧ e.2.2 = w := by
    rintro ⟨a, b, c⟩
    rw [main.2]
    simp only [List.mem_flatMap, List.mem_range, List.mem_map, List.mem_filter, decide_eq_true_eq, Prod.mk.injEq]
    constructor
    · rintro ⟨i, hi, j, ⟨hj, hij⟩, rfl, rfl, rfl⟩
      exact ⟨hi, hj, hij, rfl⟩
    · rintro ⟨h1, h2, h3, rfl⟩
      exact ⟨a, h1, b, ⟨h2, h3⟩, rfl, rfl, rfl⟩
  refine ⟨⟨?_, ?_, ?_⟩, main.1, hmem⟩
  · intro e he
    rw [main.1]
    have := (hmem e).mp he
    exact ⟨this.1, this.2.1⟩
  · intro e he
    rw [((hmem e).mp he).2.2.2]; exact hw
  · rw [main.2, List.map_flatMap]
    rw [List.nodup_flatMap]
    constructor
    · intro i _
      rw [List.map_map]
      apply List.Nodup.map
      · intro a b h; simpa using h
      · exact List.nodup_range.filter _
    · rw [List.pairwise_iff_getElem]
      intro i j hi hj hij x hx hy
      simp at hx hy
      obtain ⟨a, _, rfl⟩ := hx
      obtain ⟨b, _, h2⟩ := hy
      have := h2
      simp at this
      omega

/-! ## topology -/

/-- C35. The answer of a user-defined topology reaches the caller, unchanged, exactly if its two vectors have the same
length and all weights are finite and in `[0, 1]`; any other answer gives `std::invalid_argument`; an exception of the
user code is passed on. -/
theorem C35_get_connections (ans : Except Exn (List Nat × List (Fl K))) :
    (∀ r, topologyGetConnections ans = .ok r ↔ ans = .ok r ∧ r.1.length = r.2.length ∧ ∀ w ∈ r.2, WOk w) ∧
    (∀ e, topologyGetConnections ans = .throws e ↔ ans = .error e ∨ e = .invalidArgument ∧
      ∃ r, ans = .ok r ∧ ¬ (r.1.length = r.2.length ∧ ∀ w ∈ r.2, WOk w)) := by
  unfold topologyGetConnections
  cases ans with
  | error e =>
    constructor
    · intro r; simp
    · intro e'; simp
  | ok r =>
    have hc : Chk (r.2.forM (fun p =>
        if !p.isFinite then (.throws .invalidArgument : Outcome Unit)
        else if Fl.lt p (.fin 0) || Fl.gt p (.fin 1) then .throws .invalidArgument
        else .ok ())) (∀ w ∈ r.2, WOk w) := Chk.forM (fun a _ => checkWeight_chk a)
    by_cases hl : r.1.length = r.2.length
    · simp only [hl, ne_eq, not_true_eq_false, if_false, Except.ok.injEq]
      rcases hc with ⟨h1, h2⟩ | ⟨h1, h2⟩
      · rw [h1]
        constructor
        · intro r'
          simp only [Outcome.bind_ok, Outcome.ok.injEq]
          constructor
          · rintro rfl; exact ⟨rfl, hl, h2⟩
          · exact fun h => h.1
        · intro e'
          simp only [Outcome.bind_ok, reduceCtorEq, false_or, false_iff]
          rintro ⟨_, r', rfl, h⟩
          exact h ⟨hl, h2⟩
      · rw [h1]
        constructor
        · intro r'
          simp only [Outcome.bind_throws, reduceCtorEq, false_iff]
          rintro ⟨rfl, _, h⟩
          exact h2 h
        · intro e'
          simp only [Outcome.bind_throws, Outcome.throws.injEq, reduceCtorEq, false_or]
          constructor
          · rintro rfl; exact ⟨rfl, r, rfl, fun h => h2 h.2⟩
          · exact fun h => h.1.symm
    · simp only [hl, ne_eq, not_false_eq_true, if_true, Except.ok.injEq]
      constructor
      · intro r'
        simp only [reduceCtorEq, false_iff]
        rintro ⟨rfl, h, _⟩
        exact hl h
      · intro e'
        simp only [Outcome.throws.injEq, reduceCtorEq, false_or]
        constructor
        · rintro rfl; exact ⟨rfl, r, rfl, fun h => hl h.1⟩
        · exact fun h => h.1.symm

example : topologyGetConnections (.ok ([3], [.fin (1 : ℚ)])) = .ok ([3], [.fin 1]) := by decide +kernel
example : topologyGetConnections (.ok ([3], [(.nan : Fl ℚ)])) = .throws .invalidArgument := by decide +kernel

end Verif.Props
