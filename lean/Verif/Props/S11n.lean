import Verif.Proof.S11n

/-!
# C93, C94: saving and loading

C93: an object loaded from an archive is the object that was saved. C94: a load that fails leaves a default-constructed
object, and an archive that was cut short is never accepted.

The hypotheses on the parts: `Restores cd` for the data members (`D`), and for the user-defined classes that an object
of each class, saved and loaded into a default-constructed one, is restored.
-/

set_option autoImplicit false

namespace Verif.Props

open Verif.S11n

variable {D : Type}

/-- The user-defined classes are serializable, which is what pagmo asks of them: a saved object, loaded into a
default-constructed one, gives the object. -/
def Serializable (R : Registry) : Prop :=
  ∀ (k : String) (a : R.Ty k) (rest : List Tok),
    (R.cod k).load (R.dflt k) ((R.cod k).save a ++ rest) = .ok a rest

/-- **C93 (problem).** -/
theorem C93_problem (R : Registry) (cd : Codec D) (hR : Serializable R) (hd : Restores cd)
    (dflt : ProblemO R.Obj D) (zero : D) : Restores (problemC dflt zero R.ptr cd) :=
  restores_problem (restores_ptr hR) hd

/-- **C93 (algorithm).** -/
theorem C93_algorithm (R : Registry) (cd : Codec D) (hR : Serializable R) (hd : Restores cd)
    (dflt : AlgorithmO R.Obj D) : Restores (algorithmC dflt R.ptr cd) :=
  restores_algorithm (restores_ptr hR) hd

/-- **C93 (topology, r_policy, s_policy).** -/
theorem C93_topology_policies (R : Registry) (cd : Codec D) (hR : Serializable R) (hd : Restores cd)
    (dflt : NamedO R.Obj D) : Restores (namedC dflt R.ptr cd) :=
  restores_named (restores_ptr hR) hd

/-- **C93 (bfe).** -/
theorem C93_bfe (R : Registry) (cd : Codec D) (hR : Serializable R) (hd : Restores cd)
    (dflt : BfeO R.Obj D) : Restores (bfeC dflt R.ptr cd) :=
  restores_bfe (restores_ptr hR) hd

/-- **C93 (population).** -/
theorem C93_population (R : Registry) (cd : Codec D) (hR : Serializable R) (hd : Restores cd)
    (dprob : ProblemO R.Obj D) (zero : D) (dflt : PopO R.Obj D) :
    Restores (populationC dflt (problemC dprob zero R.ptr cd) cd) :=
  restores_population (C93_problem R cd hR hd dprob zero) hd

/-- The default-constructed objects of the wrapper classes. -/
structure Defaults (P D : Type) where
  prob : ProblemO P D
  zero : D
  algo : AlgorithmO P D
  pop : PopO P D
  rPol : NamedO P D
  sPol : NamedO P D
  isl : IslandO P D
  topo : NamedO P D
  empty : D
  mtype : D
  handling : D

/-- The serialization of an island. -/
def islandOf {P : Type} (d : Defaults P D) (cp : Codec P) (cd : Codec D) : Codec (IslandO P D) :=
  islandC d.isl cp (algorithmC d.algo cp cd) (populationC d.pop (problemC d.prob d.zero cp cd) cd)
    (namedC d.rPol cp cd) (namedC d.sPol cp cd)

/-- **C93 (island).** The user-defined island, the algorithm, the population with its problem, and the two policies. -/
theorem C93_island (R : Registry) (cd : Codec D) (hR : Serializable R) (hd : Restores cd) (d : Defaults R.Obj D) :
    Restores (islandOf d R.ptr cd) :=
  restores_island (restores_ptr hR) (C93_algorithm R cd hR hd d.algo)
    (C93_population R cd hR hd d.prob d.zero d.pop) (C93_topology_policies R cd hR hd d.rPol)
    (C93_topology_policies R cd hR hd d.sPol)

/-- The serialization of an archipelago; `alloc i` is the address of the `i`-th island made while loading. -/
def archiOf {P : Type} (d : Defaults P D) (alloc : Nat → Nat) (cp : Codec P) (cd : Codec D) :
    Codec (ArchiO (IslandO P D) (NamedO P D) D) :=
  archiC d.isl (archiDflt d.topo d.empty d.mtype d.handling) alloc (islandOf d cp cd) (namedC d.topo cp cd) cd

/-- **C93 (archipelago).** Loading a saved archipelago `s` into an archipelago `o` succeeds. The result has the islands
of `s` in the same order, its migrants, migration log, topology, migration type and migrant handling. Each island points
to `o`, and its index is found in the index map. -/
theorem C93_archipelago (R : Registry) (cd : Codec D) (hR : Serializable R) (hd : Restores cd)
    (d : Defaults R.Obj D) (alloc : Nat → Nat) (hinj : ∀ i j, alloc i = alloc j → i = j)
    (o s : ArchiO (IslandO R.Obj D) (NamedO R.Obj D) D) (rest : List Tok) :
    ∃ a, (archiOf d alloc R.ptr cd).load o ((archiOf d alloc R.ptr cd).save s ++ rest) = .ok a rest ∧
      a.self = o.self ∧ a.slots.map (·.isl) = s.slots.map (·.isl) ∧ a.migrants = s.migrants ∧ a.log = s.log ∧
      a.topo = s.topo ∧ a.mtype = s.mtype ∧ a.handling = s.handling ∧
      ∀ (i : Nat) (x : Slot (IslandO R.Obj D)), a.slots[i]? = some x →
        x.archi = some o.self ∧ a.idxMap.lookup x.addr = some i := by
  have hi := C93_island R cd hR hd d
  have ht := C93_topology_policies R cd hR hd d.topo
  obtain ⟨w, hw, he⟩ := writes_archiRest (I := IslandO R.Obj D) ht hd
  simp only [archiOf, archiC, List.append_assoc]
  rw [restores_vec hi [] (s.slots.map (·.isl))]
  simp only
  rw [hw, he]
  refine ⟨_, rfl, rfl, ?_, rfl, rfl, rfl, rfl, rfl, ?_⟩
  · dsimp only
    rw [remap_slots, List.map_map]
    exact fresh_isl alloc _ 0
  · intro i x hx
    dsimp only at hx ⊢
    rw [remap_slots, List.getElem?_map] at hx
    obtain ⟨y, hy, hxy⟩ := Option.map_eq_some_iff.1 hx
    subst hxy
    refine ⟨rfl, ?_⟩
    have := (remap_map o.self _ (fresh_nodup alloc hinj (s.slots.map (·.isl)) 0) [] 0 (fun _ _ => rfl)).2 i y hy
    rw [Nat.zero_add] at this
    exact this

/-- **C93 (not_population_based).** A selection or replacement policy given as a string comes back as a string, one
given as an index as an index. -/
theorem C93_not_population_based (cd : Codec D) (hd : Restores cd) : Restores (npbC cd) := restores_npb hd

/-- **C93 (thread_island).** -/
theorem C93_thread_island : Restores threadIslandC := by
  intro o a rest
  rfl

/-- **C93 (thread_island).** An archive of the version without pool gives an island without pool. -/
theorem C93_thread_island_old (o : Bool) (rest : List Tok) : threadIslandC.load o (.idx 0 :: rest) = .ok false rest := rfl

/-- **C93 (nlopt), partial.** An `nlopt` with local optimizers nested to any depth is restored, if it is loaded into one
without local optimizer or has one itself. Not true otherwise, see `C93_nlopt_kept`. -/
theorem C93_nlopt_partial (cd : Codec D) (hd : Restores cd) (dflt : NloptO D) (o a : NloptChain D) (rest : List Tok)
    (h : o.locals = [] ∨ a.locals ≠ []) :
    (nloptC cd dflt).load o ((nloptC cd dflt).save a ++ rest) = .ok a rest := by
  simp only [nloptC]
  have hlen := nloptSave_length cd a.locals a.head
  rw [nloptLoad_save hd dflt rest a.locals a.head _ o (by rw [List.length_append]; omega)]
  cases hl : a.locals with
  | nil =>
    rcases h with h | h
    · rw [h]
      cases a
      simp_all
    · exact absurd hl h
  | cons b l =>
    cases a
    simp_all

/-- **C93 (nlopt), false in general.** An `nlopt` without local optimizer, loaded into one that has a local optimizer,
gives one with that local optimizer: `load` does not reset it. -/
theorem C93_nlopt_kept (cd : Codec D) (hd : Restores cd) (dflt : NloptO D) (o a : NloptChain D) (rest : List Tok)
    (ho : o.locals ≠ []) (ha : a.locals = []) :
    ∃ b, (nloptC cd dflt).load o ((nloptC cd dflt).save a ++ rest) = .ok b rest ∧ b ≠ a ∧ b.locals = o.locals := by
  simp only [nloptC]
  have hlen := nloptSave_length cd a.locals a.head
  rw [nloptLoad_save hd dflt rest a.locals a.head _ o (by rw [List.length_append]; omega)]
  refine ⟨_, rfl, ?_, ?_⟩
  · intro h
    have := congrArg NloptChain.locals h
    rw [ha] at this
    exact ho (by simpa [ha] using this)
  · rw [ha]

/-- The classes that do not archive all their data members. -/
def incomplete : List String := ["de1220", "maco", "nspso", "pso", "pso_gen"]

/-- The members that are not archived. -/
def unarchived (c : ClassTab) : List String := c.members.filter (fun m => decide (m ∉ c.archived))

/-- **C93 (the other classes), partial.** Every other algorithm, problem, topology, policy, island and batch evaluator
of pagmo: an object loaded from an archive has the data members that were saved, whatever it was loaded into. Not true of
the classes in `incomplete`, see `C93_lost`. -/
theorem C93_classes_partial {V : Type} (cv : Codec V) (hv : Restores cv) (c : ClassTab) (hc : c ∈ classTabs)
    (hn : c.name ∉ incomplete) (o s : Fields V) (rest : List Tok) :
    ∃ a, (c.codec cv).load o ((c.codec cv).save s ++ rest) = .ok a rest ∧ ∀ m ∈ c.members, a m = s m := by
  have key : ∀ c ∈ classTabs, c.name ∉ incomplete → ∀ m ∈ c.members, m ∈ c.archived := by decide +kernel
  obtain ⟨w, hw, he⟩ := writes_table hv c.archived
  refine ⟨_, hw o s rest, fun m hm => ?_⟩
  rw [he, if_pos (key c hc hn m hm)]

/-- **C93 is false of five classes.** For any saved object, the listed members of the loaded object are those of the
object loaded into; all others are restored. -/
theorem C93_lost {V : Type} (cv : Codec V) (hv : Restores cv) (o s : Fields V) (rest : List Tok) :
    ∀ (name : String) (lost : List String),
      (name, lost) ∈ [("pso", ["m_memory", "m_V"]), ("pso_gen", ["m_memory", "m_V"]),
        ("nspso", ["m_memory", "m_velocity", "m_best_fit", "m_best_dvs"]), ("de1220", ["m_variant"]),
        ("maco", ["m_pop"])] →
      ∃ c ∈ classTabs, c.name = name ∧ ∃ a, (c.codec cv).load o ((c.codec cv).save s ++ rest) = .ok a rest ∧
        (∀ m ∈ lost, m ∈ c.members ∧ a m = o m) ∧ ∀ m ∈ c.members, m ∉ lost → a m = s m := by
  intro name lost h
  have key : ∀ p ∈ [("pso", ["m_memory", "m_V"]), ("pso_gen", ["m_memory", "m_V"]),
        ("nspso", ["m_memory", "m_velocity", "m_best_fit", "m_best_dvs"]), ("de1220", ["m_variant"]),
        ("maco", ["m_pop"])],
      ∃ c ∈ classTabs, c.name = p.1 ∧ (∀ m ∈ p.2, m ∈ c.members ∧ m ∉ c.archived) ∧
        ∀ m ∈ c.members, m ∉ p.2 → m ∈ c.archived := by decide +kernel
  obtain ⟨c, hc, hname, h1, h2⟩ := key (name, lost) h
  obtain ⟨w, hw, he⟩ := writes_table hv c.archived
  refine ⟨c, hc, hname, _, hw o s rest, fun m hm => ⟨(h1 m hm).1, ?_⟩, fun m hm hm' => ?_⟩
  · rw [he, if_neg (h1 m hm).2]
  · rw [he, if_pos (h2 m hm hm')]

/-- **C93 is false.** A `pso` with `memory` set, saved and loaded into a default-constructed one, has it unset. -/
theorem C93_pso_memory : ∃ c ∈ classTabs, c.name = "pso" ∧
    ∃ s o a : Fields Nat, s "m_memory" = 1 ∧ o "m_memory" = 0 ∧ (c.codec natC).load o ((c.codec natC).save s) = .ok a [] ∧
      a "m_memory" = 0 := by
  obtain ⟨c, hc, hn, a, ha, h1, -⟩ := C93_lost natC restores_nat (fun _ => 0) (fun _ => 1) [] "pso" ["m_memory", "m_V"]
    (by simp)
  rw [List.append_nil] at ha
  exact ⟨c, hc, hn, fun _ => 1, fun _ => 0, a, rfl, rfl, ha, (h1 "m_memory" (by simp)).2⟩

/-! ## C94 -/

/-- **C94.** When the loading of a problem, algorithm, topology, policy, batch evaluator, population, island or
archipelago throws, the object is left default-constructed, whatever has been read before. -/
theorem C94_failed {P : Type} (cp : Codec P) (cd : Codec D) (d : Defaults P D) (db : BfeO P D) (alloc : Nat → Nat)
    (ts : List Tok) :
    (∀ o s, (problemC d.prob d.zero cp cd).load o ts = .fail s → s = d.prob) ∧
    (∀ o s, (algorithmC d.algo cp cd).load o ts = .fail s → s = d.algo) ∧
    (∀ o s, (namedC d.topo cp cd).load o ts = .fail s → s = d.topo) ∧
    (∀ o s, (bfeC db cp cd).load o ts = .fail s → s = db) ∧
    (∀ o s, (populationC d.pop (problemC d.prob d.zero cp cd) cd).load o ts = .fail s → s = d.pop) ∧
    (∀ o s, (islandOf d cp cd).load o ts = .fail s → s = d.isl) ∧
    (∀ o s, (archiOf d alloc cp cd).load o ts = .fail s →
      s = ⟨o.self, [], [], d.empty, d.empty, d.topo, d.mtype, d.handling⟩) := by
  have guard : ∀ {α : Type} (dd : α) (c : Codec α) (o s : α), (Codec.guarded dd c).load o ts = .fail s → s = dd := by
    intro α dd c o s h
    simp only [Codec.guarded] at h
    cases hc : c.load o ts with
    | ok a r => rw [hc] at h; exact absurd h (by simp)
    | fail a => rw [hc] at h; exact (Res.fail.inj h).symm
  refine ⟨fun o s h => ?_, fun o s h => guard _ _ _ _ h, fun o s h => guard _ _ _ _ h, fun o s h => guard _ _ _ _ h,
    fun o s h => guard _ _ _ _ h, fun o s h => guard _ _ _ _ h, fun o s h => ?_⟩
  · simp only [problemC] at h
    cases hc : (Codec.seq (problemReads cp cd)).load ⟨o, d.zero, d.zero, d.zero⟩ ts with
    | ok a r => rw [hc] at h; exact absurd h (by simp)
    | fail a => rw [hc] at h; exact (Res.fail.inj h).symm
  · simp only [archiOf, archiC] at h
    cases hc : (Codec.vec d.isl (islandOf d cp cd)).load [] ts with
    | fail a => rw [hc] at h; exact (Res.fail.inj h).symm
    | ok l r =>
      rw [hc] at h
      simp only at h
      cases hc2 : (archiRest (namedC d.topo cp cd) cd).load
          { o with slots := (remap o.self [] 0 (fresh alloc 0 l)).2, idxMap := (remap o.self [] 0 (fresh alloc 0 l)).1 }
          r with
      | ok a r => rw [hc2] at h; exact absurd h (by simp)
      | fail a => rw [hc2] at h; exact (Res.fail.inj h).symm

/-- The serialization of the parts reads what it needs and nothing more. -/
def Sequential (R : Registry) : Prop := ∀ k, Prefixes (R.cod k)

/-- **C94.** The archive of a problem, an algorithm, a population, an island or an archipelago that was cut short
anywhere is not accepted: loading it throws. -/
theorem C94_truncated (R : Registry) (cd : Codec D) (hR : Serializable R) (hd : Restores cd) (hS : Sequential R)
    (hS' : Prefixes cd) (d : Defaults R.Obj D) (alloc : Nat → Nat) (hinj : ∀ i j, alloc i = alloc j → i = j)
    (p q : List Tok) (hq : q ≠ []) :
    (∀ o a, (problemC d.prob d.zero R.ptr cd).save a = p ++ q →
      ∃ s, (problemC d.prob d.zero R.ptr cd).load o p = .fail s) ∧
    (∀ o a, (algorithmC d.algo R.ptr cd).save a = p ++ q → ∃ s, (algorithmC d.algo R.ptr cd).load o p = .fail s) ∧
    (∀ o a, (populationC d.pop (problemC d.prob d.zero R.ptr cd) cd).save a = p ++ q →
      ∃ s, (populationC d.pop (problemC d.prob d.zero R.ptr cd) cd).load o p = .fail s) ∧
    (∀ o a, (islandOf d R.ptr cd).save a = p ++ q → ∃ s, (islandOf d R.ptr cd).load o p = .fail s) ∧
    (∀ o a, (archiOf d alloc R.ptr cd).save a = p ++ q → ∃ s, (archiOf d alloc R.ptr cd).load o p = .fail s) := by
  have hp := prefixes_ptr hS
  have hprob : Prefixes (problemC d.prob d.zero R.ptr cd) := prefixes_problem hp hS'
  have halgo : Prefixes (algorithmC d.algo R.ptr cd) := by
    refine prefixes_fields fun c hc => ?_
    simp only [List.mem_cons, List.not_mem_nil, or_false] at hc
    rcases hc with rfl | rfl | rfl | rfl | rfl
    · exact prefixes_field hp
    all_goals exact prefixes_field hS'
  have hnamed : ∀ dn : NamedO R.Obj D, Prefixes (namedC dn R.ptr cd) := by
    intro dn
    refine prefixes_fields fun c hc => ?_
    simp only [List.mem_cons, List.not_mem_nil, or_false] at hc
    rcases hc with rfl | rfl
    · exact prefixes_field hp
    · exact prefixes_field hS'
  have hpop : Prefixes (populationC d.pop (problemC d.prob d.zero R.ptr cd) cd) := by
    refine prefixes_fields fun c hc => ?_
    simp only [List.mem_cons, List.not_mem_nil, or_false] at hc
    rcases hc with rfl | rfl | rfl | rfl | rfl | rfl | rfl | rfl
    · exact prefixes_field hprob
    all_goals exact prefixes_field hS'
  have hisl : Prefixes (islandOf d R.ptr cd) := by
    refine prefixes_fields fun c hc => ?_
    simp only [List.mem_cons, List.not_mem_nil, or_false] at hc
    rcases hc with rfl | rfl | rfl | rfl | rfl
    · exact prefixes_field hp
    · exact prefixes_field halgo
    · exact prefixes_field hpop
    · exact prefixes_field (hnamed d.rPol)
    · exact prefixes_field (hnamed d.sPol)
  have cut : ∀ {α : Type} {c : Codec α}, Restores c → Prefixes c → ∀ o a, c.save a = p ++ q →
      ∃ s, c.load o p = .fail s := by
    intro α c hr hpre o a ha
    refine truncated_fails hpre (a := a) ?_ hq
    have := hr o a []
    rwa [List.append_nil, ha] at this
  refine ⟨cut (C93_problem R cd hR hd _ _) hprob, cut (C93_algorithm R cd hR hd _) halgo,
    cut (C93_population R cd hR hd _ _ _) hpop, cut (C93_island R cd hR hd d) hisl, fun o a ha => ?_⟩
  have har : Prefixes (archiOf d alloc R.ptr cd) := prefixes_archi hisl (hnamed d.topo) hS'
  obtain ⟨b, hb, -⟩ := C93_archipelago R cd hR hd d alloc hinj o a []
  rw [List.append_nil, ha] at hb
  exact truncated_fails har hb hq

/-! ## The hypotheses are met -/

/-- one user-defined class, `"sphere"`-like, with one number; the same for every key -/
def demoReg : Registry := ⟨fun _ => Nat, fun _ => 0, fun _ => natC⟩

theorem demoReg_ser : Serializable demoReg := fun _ a rest => restores_nat 0 a rest

theorem demoReg_seq : Sequential demoReg := fun _ => prefixes_prim

/-- default-constructed objects -/
def demoDefaults : Defaults demoReg.Obj Nat :=
  let ptr : demoReg.Obj := ⟨"null", (0 : Nat)⟩
  let prob : ProblemO demoReg.Obj Nat := ⟨ptr, 0, 0, 0, 0, 1, 1, 0, 0, 0, 0, 0, 0, 0, 0, 0, 0, 0, 0, 0, 0⟩
  let pop : PopO demoReg.Obj Nat := ⟨prob, 0, 0, 0, 0, 0, 0, 0⟩
  let algo : AlgorithmO demoReg.Obj Nat := ⟨ptr, 0, 0, 0, 0⟩
  ⟨prob, 0, algo, pop, ⟨ptr, 0⟩, ⟨ptr, 0⟩, ⟨ptr, algo, pop, ⟨ptr, 0⟩, ⟨ptr, 0⟩⟩, ⟨ptr, 0⟩, 0, 0, 0⟩

example : Restores (problemC demoDefaults.prob 0 demoReg.ptr natC) :=
  C93_problem demoReg natC demoReg_ser restores_nat _ 0

example : Restores (islandOf demoDefaults demoReg.ptr natC) := C93_island demoReg natC demoReg_ser restores_nat _

/-- the allocation hypothesis of `C93_archipelago` and the hypotheses of `C94_truncated` -/
example (p q : List Tok) (hq : q ≠ []) :=
  C94_truncated demoReg natC demoReg_ser restores_nat demoReg_seq prefixes_prim demoDefaults (fun i => 100 + i)
    (fun i j h => by simpa using h) p q hq

/-- an archive cut short leaves a default-constructed algorithm -/
example : (algorithmC demoDefaults.algo demoReg.ptr natC).load ⟨⟨"de", (7 : Nat)⟩, 1, 1, 5, 0⟩
      [.str "sga", .idx 3, .idx 1, .idx 1]
    = .fail demoDefaults.algo := rfl

/-- `C93_classes_partial` on `de` -/
example : (⟨"gwo", ["m_gen", "m_seed", "m_e", "m_verbosity", "m_log"],
    ["m_gen", "m_seed", "m_e", "m_verbosity", "m_log"]⟩ : ClassTab) ∈ classTabs := by decide +kernel

/-- two nested local optimizers -/
example (dflt a b c : NloptO Nat) :
    (nloptC natC dflt).load ⟨dflt, []⟩ ((nloptC natC dflt).save ⟨a, [b, c]⟩ ++ []) = .ok ⟨a, [b, c]⟩ [] :=
  C93_nlopt_partial natC restores_nat dflt ⟨dflt, []⟩ ⟨a, [b, c]⟩ [] (Or.inl rfl)

end Verif.Props
