import Verif.Model.S11n

/-!
# Composition of serializations

`Restores`: loading what was saved gives back the object, whatever is in the object loaded into, and leaves the rest of
the archive alone. `Writes`: the same for one data member. `Prefixes`: loading looks at nothing past what it reads.
-/

set_option autoImplicit false

namespace Verif.S11n

variable {α β D P I T : Type}

/-- Loading what was saved gives back the object, whatever the object loaded into was. -/
def Restores (c : Codec α) : Prop := ∀ (o a : α) (rest : List Tok), c.load o (c.save a ++ rest) = .ok a rest

/-- Loading what was saved turns the target `o` into `w a o`. -/
def Writes (c : Codec α) (w : α → α → α) : Prop :=
  ∀ (o a : α) (rest : List Tok), c.load o (c.save a ++ rest) = .ok (w a o) rest

/-- What follows in the archive does not matter to a load that succeeds. -/
def Prefixes (c : Codec α) : Prop :=
  ∀ (o : α) (ts x : List Tok) (a : α) (r : List Tok), c.load o ts = .ok a r → c.load o (ts ++ x) = .ok a (r ++ x)

theorem Writes.restores {c : Codec α} {w : α → α → α} (h : Writes c w) (hw : ∀ a o, w a o = a) : Restores c :=
  fun o a rest => by rw [h o a rest, hw]

theorem restores_prim {enc : α → Tok} {dec : Tok → Option α} (h : ∀ a, dec (enc a) = some a) :
    Restores (Codec.prim enc dec) := by
  intro o a rest
  simp [Codec.prim, h]

theorem restores_bool : Restores boolC := restores_prim fun _ => rfl
theorem restores_nat : Restores natC := restores_prim fun _ => rfl
theorem restores_str : Restores strC := restores_prim fun _ => rfl

theorem writes_field {get : α → β} {set : β → α → α} {c : Codec β} (h : Restores c) :
    Writes (Codec.field get set c) (fun a o => set (get a) o) := by
  intro o a rest
  simp only [Codec.field]
  rw [h (get o) (get a) rest]

theorem seq_save (cs : List (Codec α)) (a : α) : (Codec.seq cs).save a = (cs.map (·.save a)).flatten := by
  induction cs with
  | nil => rfl
  | cons c cs ih => simp [Codec.seq, ih]

theorem writes_nil : Writes (Codec.seq ([] : List (Codec α))) (fun _ o => o) := fun _ _ _ => rfl

theorem writes_cons {c : Codec α} {cs : List (Codec α)} {w w' : α → α → α} (h : Writes c w)
    (h' : Writes (Codec.seq cs) w') : Writes (Codec.seq (c :: cs)) (fun a o => w' a (w a o)) := by
  intro o a rest
  simp only [Codec.seq, List.append_assoc]
  rw [h o a]
  exact h' _ a rest

theorem restores_guarded {d : α} {c : Codec α} (h : Restores c) : Restores (Codec.guarded d c) := by
  intro o a rest
  simp only [Codec.guarded]
  rw [h o a rest]

theorem loadEach_restores {c : Codec α} (h : Restores c) (rest : List Tok) :
    ∀ (l os : List α), os.length = l.length → loadEach c os (l.flatMap c.save ++ rest) = .ok l rest := by
  intro l
  induction l with
  | nil =>
    intro os ho
    have : os = [] := List.length_eq_zero_iff.1 ho
    subst this
    rfl
  | cons a l ih =>
    intro os ho
    match os, ho with
    | o :: os, ho =>
      have hlen : os.length = l.length := by simpa using ho
      simp only [loadEach, List.flatMap_cons, List.append_assoc]
      rw [h o a]
      simp only
      rw [ih os hlen]

theorem restores_vec {d : α} {c : Codec α} (h : Restores c) : Restores (Codec.vec d c) := by
  intro o l rest
  simp only [Codec.vec, List.cons_append]
  refine loadEach_restores h rest l _ ?_
  simp only [List.length_append, List.length_take, List.length_replicate]
  omega

theorem restores_opt {d : α} {c : Codec α} (h : ∀ a rest, c.load d (c.save a ++ rest) = .ok a rest) :
    Restores (Codec.opt d c) := by
  intro o a rest
  cases a with
  | none => rfl
  | some x =>
    simp only [Codec.opt, List.cons_append]
    rw [h x rest]

theorem restores_ptr {R : Registry}
    (h : ∀ (k : String) (a : R.Ty k) (rest : List Tok),
      (R.cod k).load (R.dflt k) ((R.cod k).save a ++ rest) = .ok a rest) : Restores R.ptr := by
  intro o a rest
  simp only [Registry.ptr, List.cons_append]
  rw [h a.1 a.2 rest]
  rfl

theorem restores_choice : Restores choiceC := by
  intro o a rest
  cases a <;> rfl

theorem restores_npb {cd : Codec D} (h : Restores cd) : Restores (npbC cd) :=
  (writes_cons (writes_field restores_choice) (writes_cons (writes_field restores_choice)
    (writes_cons (writes_field h) (writes_cons (writes_field h) writes_nil)))).restores fun _ _ => rfl

theorem restores_nloptFlat {cd : Codec D} (h : Restores cd) : Restores (nloptFlatC cd) :=
  (writes_cons (writes_field (restores_npb h)) (writes_cons (writes_field h) (writes_cons (writes_field h)
    (writes_cons (writes_field h) (writes_cons (writes_field h) (writes_cons (writes_field h)
    (writes_cons (writes_field h) (writes_cons (writes_field h) (writes_cons (writes_field h)
    (writes_cons (writes_field h) (writes_cons (writes_field h)
    (writes_cons (writes_field h) writes_nil)))))))))))).restores fun _ _ => rfl

theorem restores_algorithm {dflt : AlgorithmO P D} {cp : Codec P} {cd : Codec D} (hp : Restores cp) (h : Restores cd) :
    Restores (algorithmC dflt cp cd) :=
  restores_guarded ((writes_cons (writes_field hp) (writes_cons (writes_field h) (writes_cons (writes_field h)
    (writes_cons (writes_field h) (writes_cons (writes_field h) writes_nil))))).restores fun _ _ => rfl)

theorem restores_named {dflt : NamedO P D} {cp : Codec P} {cd : Codec D} (hp : Restores cp) (h : Restores cd) :
    Restores (namedC dflt cp cd) :=
  restores_guarded ((writes_cons (writes_field hp) (writes_cons (writes_field h) writes_nil)).restores fun _ _ => rfl)

theorem restores_bfe {dflt : BfeO P D} {cp : Codec P} {cd : Codec D} (hp : Restores cp) (h : Restores cd) :
    Restores (bfeC dflt cp cd) :=
  restores_guarded ((writes_cons (writes_field hp) (writes_cons (writes_field h)
    (writes_cons (writes_field h) writes_nil))).restores fun _ _ => rfl)

theorem restores_population {dflt : PopO P D} {cq : Codec (ProblemO P D)} {cd : Codec D} (hp : Restores cq)
    (h : Restores cd) : Restores (populationC dflt cq cd) :=
  restores_guarded ((writes_cons (writes_field hp) (writes_cons (writes_field h) (writes_cons (writes_field h)
    (writes_cons (writes_field h) (writes_cons (writes_field h) (writes_cons (writes_field h)
    (writes_cons (writes_field h) (writes_cons (writes_field h) writes_nil)))))))).restores fun _ _ => rfl)

theorem restores_island {dflt : IslandO P D} {cp : Codec P} {ca : Codec (AlgorithmO P D)} {cpop : Codec (PopO P D)}
    {cr cs : Codec (NamedO P D)} (hp : Restores cp) (ha : Restores ca) (hpop : Restores cpop) (hr : Restores cr)
    (hs : Restores cs) : Restores (islandC dflt cp ca cpop cr cs) :=
  restores_guarded ((writes_cons (writes_field hp) (writes_cons (writes_field ha) (writes_cons (writes_field hpop)
    (writes_cons (writes_field hr) (writes_cons (writes_field hs) writes_nil))))).restores fun _ _ => rfl)

theorem restores_problem {dflt : ProblemO P D} {zero : D} {cp : Codec P} {cd : Codec D} (hp : Restores cp)
    (h : Restores cd) : Restores (problemC dflt zero cp cd) := by
  intro o a rest
  obtain ⟨w, hw, he⟩ : ∃ w, Writes (Codec.seq (problemReads cp cd)) w ∧ ∀ a o : ProbLoad P D, w a o =
      ⟨{ a.prob with fevals := o.prob.fevals, gevals := o.prob.gevals, hevals := o.prob.hevals }, a.fevals, a.gevals,
        a.hevals⟩ :=
    ⟨_, writes_cons (writes_field hp) (writes_cons (writes_field h) (writes_cons (writes_field h)
    (writes_cons (writes_field h) (writes_cons (writes_field h) (writes_cons (writes_field h)
    (writes_cons (writes_field h) (writes_cons (writes_field h) (writes_cons (writes_field h)
    (writes_cons (writes_field h) (writes_cons (writes_field h) (writes_cons (writes_field h)
    (writes_cons (writes_field h) (writes_cons (writes_field h) (writes_cons (writes_field h)
    (writes_cons (writes_field h) (writes_cons (writes_field h) (writes_cons (writes_field h)
    (writes_cons (writes_field h) (writes_cons (writes_field h)
    (writes_cons (writes_field h) writes_nil)))))))))))))))))))), fun _ _ => rfl⟩
  have hl : (Codec.seq (problemReads cp cd)).load ⟨o, zero, zero, zero⟩ ((problemC dflt zero cp cd).save a ++ rest)
      = .ok ⟨{ a with fevals := o.fevals, gevals := o.gevals, hevals := o.hevals }, a.fevals, a.gevals, a.hevals⟩
        rest := by
    have := hw ⟨o, zero, zero, zero⟩ ⟨a, a.fevals, a.gevals, a.hevals⟩ rest
    rw [he] at this
    have hs : (problemC dflt zero cp cd).save a
        = (Codec.seq (problemReads cp cd)).save ⟨a, a.fevals, a.gevals, a.hevals⟩ := by
      rw [seq_save]
      rfl
    exact (congrArg (fun t => (Codec.seq (problemReads cp cd)).load ⟨o, zero, zero, zero⟩ (t ++ rest)) hs).trans this
  show (match (Codec.seq (problemReads cp cd)).load ⟨o, zero, zero, zero⟩
      ((problemC dflt zero cp cd).save a ++ rest) with
    | .ok l r => Res.ok { l.prob with fevals := l.fevals, gevals := l.gevals, hevals := l.hevals } r
    | .fail _ => .fail dflt) = _
  rw [hl]

/-! ## Archipelagos -/

theorem writes_archiRest {ct : Codec T} {cd : Codec D} (ht : Restores ct) (h : Restores cd) :
    ∃ w, Writes (archiRest (I := I) ct cd) w ∧ ∀ a o : ArchiO I T D, w a o =
      ⟨o.self, o.slots, o.idxMap, a.migrants, a.log, a.topo, a.mtype, a.handling⟩ :=
  ⟨_, writes_cons (writes_field h) (writes_cons (writes_field h) (writes_cons (writes_field ht)
    (writes_cons (writes_field h) (writes_cons (writes_field h) writes_nil)))), fun _ _ => rfl⟩

theorem fresh_isl (alloc : Nat → Nat) (l : List I) : ∀ i, (fresh alloc i l).map (·.isl) = l := by
  induction l with
  | nil => intro i; rfl
  | cons x l ih => intro i; simp [fresh, ih]

theorem fresh_get (alloc : Nat → Nat) (l : List I) :
    ∀ i j : Nat, (fresh alloc i l)[j]? = l[j]?.map fun x => ⟨alloc (i + j), none, x⟩ := by
  induction l with
  | nil => intro i j; simp [fresh]
  | cons x l ih =>
    intro i j
    cases j with
    | zero => simp [fresh]
    | succ j =>
      simp only [fresh, List.getElem?_cons_succ]
      rw [ih (i + 1) j, show i + 1 + j = i + (j + 1) by omega]

theorem remap_slots (self : Nat) (l : List (Slot I)) :
    ∀ (m : List (Nat × Nat)) (i : Nat), (remap self m i l).2 = l.map fun s => { s with archi := some self } := by
  induction l with
  | nil => intro m i; rfl
  | cons x l ih => intro m i; simp [remap, ih]

theorem lookup_emplace (m : List (Nat × Nat)) (k v q : Nat) :
    (emplace m k v).lookup q = if q = k ∧ m.lookup k = none then some v else m.lookup q := by
  unfold emplace
  by_cases hk : (m.lookup k).isSome
  · rw [if_pos hk, if_neg]
    rintro ⟨-, hn⟩
    rw [hn] at hk
    exact absurd hk (by simp)
  · rw [if_neg hk]
    have hn : m.lookup k = none := Option.not_isSome_iff_eq_none.1 hk
    by_cases hq : q = k
    · subst hq
      simp [hn]
    · have : (q == k) = false := by simpa using hq
      simp [List.lookup_cons, this, hq]

theorem remap_map (self : Nat) (l : List (Slot I)) (hinj : (l.map (·.addr)).Nodup) :
    ∀ (m : List (Nat × Nat)) (i : Nat), (∀ s ∈ l, m.lookup s.addr = none) →
      (∀ k : Nat, k ∉ l.map (·.addr) → (remap self m i l).1.lookup k = m.lookup k) ∧
      (∀ (j : Nat) (s : Slot I), l[j]? = some s → (remap self m i l).1.lookup s.addr = some (i + j)) := by
  induction l with
  | nil => intro m i _; exact ⟨fun _ _ => rfl, fun j s hs => absurd hs (by simp)⟩
  | cons x l ih =>
    intro m i hm
    rw [List.map_cons, List.nodup_cons] at hinj
    have hx : m.lookup x.addr = none := hm x List.mem_cons_self
    have hm' : ∀ s ∈ l, (emplace m x.addr i).lookup s.addr = none := by
      intro s hs
      rw [lookup_emplace, if_neg]
      · exact hm s (List.mem_cons_of_mem _ hs)
      · rintro ⟨he, -⟩
        exact hinj.1 (he ▸ List.mem_map_of_mem hs)
    obtain ⟨h1, h2⟩ := ih hinj.2 (emplace m x.addr i) (i + 1) hm'
    refine ⟨fun k hk => ?_, fun j s hs => ?_⟩
    · rw [List.map_cons, List.mem_cons, not_or] at hk
      show (remap self (emplace m x.addr i) (i + 1) l).1.lookup k = _
      rw [h1 k hk.2, lookup_emplace, if_neg (fun h => hk.1 h.1)]
    · show (remap self (emplace m x.addr i) (i + 1) l).1.lookup s.addr = _
      cases j with
      | zero =>
        simp only [List.getElem?_cons_zero, Option.some.injEq] at hs
        subst hs
        rw [h1 _ hinj.1, lookup_emplace, if_pos ⟨rfl, hx⟩]
        rfl
      | succ j =>
        rw [List.getElem?_cons_succ] at hs
        rw [h2 j s hs, show i + 1 + j = i + (j + 1) by omega]

theorem fresh_nodup (alloc : Nat → Nat) (hinj : ∀ i j, alloc i = alloc j → i = j) (l : List I) :
    ∀ i : Nat, ((fresh alloc i l).map (·.addr)).Nodup := by
  have key : ∀ (l : List I) (i : Nat) (a : Nat), a ∈ (fresh alloc i l).map (·.addr) → ∃ j, i ≤ j ∧ a = alloc j := by
    intro l
    induction l with
    | nil => intro i a h; exact absurd h (by simp [fresh])
    | cons x l ih =>
      intro i a h
      simp only [fresh, List.map_cons, List.mem_cons] at h
      rcases h with h | h
      · exact ⟨i, Nat.le_refl i, h⟩
      · obtain ⟨j, hj, e⟩ := ih (i + 1) a h
        exact ⟨j, by omega, e⟩
  induction l with
  | nil => intro i; simp [fresh]
  | cons x l ih =>
    intro i
    simp only [fresh, List.map_cons, List.nodup_cons]
    refine ⟨fun h => ?_, ih (i + 1)⟩
    obtain ⟨j, hj, e⟩ := key l (i + 1) _ h
    have := hinj i j e
    omega

/-! ## `nlopt` -/

theorem nloptLoad_save {cd : Codec D} (h : Restores cd) (dflt : NloptO D) (rest : List Tok) :
    ∀ (l : List (NloptO D)) (a : NloptO D) (n : Nat) (o : NloptChain D), l.length < n →
      nloptLoad cd dflt n o (nloptSave cd a l ++ rest)
        = .ok ⟨a, match l with | [] => o.locals | _ => l⟩ rest := by
  intro l
  induction l with
  | nil =>
    intro a n o hn
    match n, hn with
    | n + 1, _ =>
      simp only [nloptLoad, nloptSave, List.append_assoc, List.cons_append, List.nil_append]
      rw [restores_nloptFlat h]
  | cons b l ih =>
    intro a n o hn
    match n, hn with
    | n + 1, hn =>
      simp only [nloptLoad, nloptSave, List.append_assoc, List.cons_append]
      rw [restores_nloptFlat h]
      simp only
      rw [ih b n ⟨dflt, []⟩ (by simpa using hn)]
      cases l <;> rfl

theorem nloptSave_length (cd : Codec D) : ∀ (l : List (NloptO D)) (a : NloptO D),
    l.length < (nloptSave cd a l).length := by
  intro l
  induction l with
  | nil => intro a; simp [nloptSave]
  | cons b l ih =>
    intro a
    have := ih b
    simp only [nloptSave, List.length_append, List.length_cons]
    omega

/-! ## Tables -/

theorem writes_table {V : Type} {cv : Codec V} (h : Restores cv) (ms : List String) :
    ∃ w, Writes (Codec.seq (ms.map fun m => .field (fun o : Fields V => o m) (setField m) cv)) w ∧
      ∀ (a o : Fields V) (k : String), w a o k = if k ∈ ms then a k else o k := by
  induction ms with
  | nil => exact ⟨_, writes_nil, fun a o k => by simp⟩
  | cons m ms ih =>
    obtain ⟨w, hw, he⟩ := ih
    refine ⟨_, writes_cons (writes_field h) hw, fun a o k => ?_⟩
    rw [he]
    by_cases h1 : k ∈ ms
    · rw [if_pos h1, if_pos (List.mem_cons_of_mem _ h1)]
    · rw [if_neg h1]
      by_cases h2 : k = m
      · subst h2
        rw [if_pos List.mem_cons_self]
        simp [setField]
      · rw [if_neg (by simp [h1, h2])]
        simp [setField, h2]

/-! ## Truncated archives -/

theorem prefixes_prim {enc : α → Tok} {dec : Tok → Option α} : Prefixes (Codec.prim enc dec) := by
  intro o ts x a r h
  cases ts with
  | nil => exact absurd h (by simp [Codec.prim])
  | cons t ts =>
    simp only [Codec.prim, List.cons_append] at h ⊢
    cases hd : dec t with
    | none => rw [hd] at h; exact absurd h (by simp)
    | some b =>
      rw [hd] at h
      simp only [Res.ok.injEq] at h ⊢
      exact ⟨h.1, by rw [h.2]⟩

theorem prefixes_field {get : α → β} {set : β → α → α} {c : Codec β} (h : Prefixes c) :
    Prefixes (Codec.field get set c) := by
  intro o ts x a r hl
  simp only [Codec.field] at hl ⊢
  cases hc : c.load (get o) ts with
  | fail b => rw [hc] at hl; exact absurd hl (by simp)
  | ok b r' =>
    rw [hc] at hl
    rw [h _ _ x _ _ hc]
    simp only [Res.ok.injEq] at hl ⊢
    exact ⟨hl.1, by rw [hl.2]⟩

theorem prefixes_seq (cs : List (Codec α)) (h : ∀ c ∈ cs, Prefixes c) : Prefixes (Codec.seq cs) := by
  induction cs with
  | nil =>
    intro o ts x a r hl
    simp only [Codec.seq, Res.ok.injEq] at hl ⊢
    exact ⟨hl.1, by rw [hl.2]⟩
  | cons c cs ih =>
    intro o ts x a r hl
    simp only [Codec.seq] at hl ⊢
    cases hc : c.load o ts with
    | fail b => rw [hc] at hl; exact absurd hl (by simp)
    | ok b r' =>
      rw [hc] at hl
      rw [h c List.mem_cons_self _ _ x _ _ hc]
      exact ih (fun c hc => h c (List.mem_cons_of_mem _ hc)) _ _ x _ _ hl

theorem prefixes_guarded {d : α} {c : Codec α} (h : Prefixes c) : Prefixes (Codec.guarded d c) := by
  intro o ts x a r hl
  simp only [Codec.guarded] at hl ⊢
  cases hc : c.load o ts with
  | fail b => rw [hc] at hl; exact absurd hl (by simp)
  | ok b r' =>
    rw [hc] at hl
    rw [h _ _ x _ _ hc]
    simp only [Res.ok.injEq] at hl ⊢
    exact ⟨hl.1, by rw [hl.2]⟩

theorem prefixes_each {c : Codec α} (h : Prefixes c) : ∀ (os : List α) (ts x : List Tok) (l : List α) (r : List Tok),
    loadEach c os ts = .ok l r → loadEach c os (ts ++ x) = .ok l (r ++ x) := by
  intro os
  induction os with
  | nil =>
    intro ts x l r hl
    simp only [loadEach, Res.ok.injEq] at hl ⊢
    exact ⟨hl.1, by rw [hl.2]⟩
  | cons o os ih =>
    intro ts x l r hl
    simp only [loadEach] at hl ⊢
    cases hc : c.load o ts with
    | fail b => rw [hc] at hl; exact absurd hl (by simp)
    | ok b r' =>
      rw [hc] at hl
      rw [h _ _ x _ _ hc]
      simp only at hl ⊢
      cases hs : loadEach c os r' with
      | fail b => rw [hs] at hl; exact absurd hl (by simp)
      | ok b r'' =>
        rw [hs] at hl
        rw [ih _ x _ _ hs]
        simp only [Res.ok.injEq] at hl ⊢
        exact ⟨hl.1, by rw [hl.2]⟩

theorem prefixes_vec {d : α} {c : Codec α} (h : Prefixes c) : Prefixes (Codec.vec d c) := by
  intro o ts x a r hl
  match ts, hl with
  | [], hl => exact absurd hl (by simp [Codec.vec])
  | .flag _ :: _, hl => exact absurd hl (by simp [Codec.vec])
  | .str _ :: _, hl => exact absurd hl (by simp [Codec.vec])
  | .raw _ :: _, hl => exact absurd hl (by simp [Codec.vec])
  | .idx n :: ts, hl => exact prefixes_each h _ ts x _ _ hl

theorem prefixes_ptr {R : Registry} (h : ∀ k, Prefixes (R.cod k)) : Prefixes R.ptr := by
  intro o ts x a r hl
  match ts, hl with
  | [], hl => exact absurd hl (by simp [Registry.ptr])
  | .flag _ :: _, hl => exact absurd hl (by simp [Registry.ptr])
  | .idx _ :: _, hl => exact absurd hl (by simp [Registry.ptr])
  | .raw _ :: _, hl => exact absurd hl (by simp [Registry.ptr])
  | .str k :: ts, hl =>
    simp only [Registry.ptr, List.cons_append] at hl ⊢
    cases hc : (R.cod k).load (R.dflt k) ts with
    | fail b => rw [hc] at hl; exact absurd hl (by simp)
    | ok b r' =>
      rw [hc] at hl
      rw [h k _ _ x _ _ hc]
      cases hl
      rfl

theorem prefixes_fields {cs : List (Codec α)} {d : α} (h : ∀ c ∈ cs, Prefixes c) :
    Prefixes (Codec.guarded d (Codec.seq cs)) := prefixes_guarded (prefixes_seq cs h)

theorem prefixes_problem {dflt : ProblemO P D} {zero : D} {cp : Codec P} {cd : Codec D} (hp : Prefixes cp)
    (h : Prefixes cd) : Prefixes (problemC dflt zero cp cd) := by
  intro o ts x a r hl
  have hs : Prefixes (Codec.seq (problemReads cp cd)) := by
    refine prefixes_seq _ fun c hc => ?_
    simp only [problemReads, List.mem_cons, List.not_mem_nil, or_false] at hc
    rcases hc with rfl | hc
    · exact prefixes_field hp
    · rcases hc with rfl | rfl | rfl | rfl | rfl | rfl | rfl | rfl | rfl | rfl | rfl | rfl | rfl | rfl | rfl | rfl
        | rfl | rfl | rfl | rfl <;> exact prefixes_field h
  simp only [problemC] at hl ⊢
  cases hc : (Codec.seq (problemReads cp cd)).load ⟨o, zero, zero, zero⟩ ts with
  | fail b => rw [hc] at hl; exact absurd hl (by simp)
  | ok b r' =>
    rw [hc] at hl
    rw [hs _ _ x _ _ hc]
    simp only [Res.ok.injEq] at hl ⊢
    exact ⟨hl.1, by rw [hl.2]⟩

theorem prefixes_archi {d : I} {dflt : Nat → ArchiO I T D} {alloc : Nat → Nat} {ci : Codec I} {ct : Codec T}
    {cd : Codec D} (hi : Prefixes ci) (ht : Prefixes ct) (h : Prefixes cd) :
    Prefixes (archiC d dflt alloc ci ct cd) := by
  intro o ts x a r hl
  have hs : Prefixes (archiRest (I := I) ct cd) := by
    refine prefixes_seq _ fun c hc => ?_
    simp only [List.mem_cons, List.not_mem_nil, or_false] at hc
    rcases hc with rfl | rfl | rfl | rfl | rfl
    · exact prefixes_field h
    · exact prefixes_field h
    · exact prefixes_field ht
    · exact prefixes_field h
    · exact prefixes_field h
  simp only [archiC] at hl ⊢
  cases hc : (Codec.vec d ci).load [] ts with
  | fail b => rw [hc] at hl; exact absurd hl (by simp)
  | ok b r' =>
    rw [hc] at hl
    rw [prefixes_vec hi _ _ x _ _ hc]
    simp only at hl ⊢
    cases hc2 : (archiRest ct cd).load
        { o with slots := (remap o.self [] 0 (fresh alloc 0 b)).2, idxMap := (remap o.self [] 0 (fresh alloc 0 b)).1 }
        r' with
    | fail b => rw [hc2] at hl; exact absurd hl (by simp)
    | ok b r'' =>
      rw [hc2] at hl
      rw [hs _ _ x _ _ hc2]
      simp only [Res.ok.injEq] at hl ⊢
      exact ⟨hl.1, by rw [hl.2]⟩

/-- A proper beginning of an archive that loads is rejected. -/
theorem truncated_fails {c : Codec α} (h : Prefixes c) {o a : α} {p q : List Tok} (hl : c.load o (p ++ q) = .ok a [])
    (hq : q ≠ []) : ∃ s, c.load o p = .fail s := by
  cases hp : c.load o p with
  | fail s => exact ⟨s, rfl⟩
  | ok b r =>
    have := h o p q b r hp
    rw [hl] at this
    simp only [Res.ok.injEq] at this
    exact absurd (List.append_eq_nil_iff.1 this.2.symm).2 hq

end Verif.S11n
