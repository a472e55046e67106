import Verif.Model.Migration
import Mathlib.Data.List.Induction

/-!
# C41: migrants are neither invented nor duplicated
-/

set_option autoImplicit false

namespace Verif.Props

open Verif Migr

variable {X : Type}

/-! ## The database and the islands according to the history -/

/-- The database after one more observation. -/
def dbStep (db : List (Grp X)) : Migr.Obs X → List (Grp X)
  | .fetched _ src true _ => db.set src ⟨[], [], []⟩
  | .put i g => db.set i g
  | .setDb d => d
  | _ => db

/-- The database after a history. -/
def dbAfter (db : List (Grp X)) (l : List (Migr.Obs X)) : List (Grp X) := l.foldl dbStep db

/-- What an island did in its current iteration: the connections it was given, the groups it fetched and their origin,
what its replacement policy returned and what its selection policy returned last. -/
structure IslH (X : Type) where
  conns : List Nat
  got : List (Nat × Grp X)
  news : List (Nat × X × X)
  sel : Option (Grp X)

def islStep (i : Nat) (h : IslH X) : Migr.Obs X → IslH X
  | .conns j cs => if j = i then { h with conns := cs, got := [] } else h
  | .fetched j src _ g => if j = i then { h with got := h.got ++ [(src, g)] } else h
  | .replaced j _ news => if j = i then { h with news := news } else h
  | .selected j g => if j = i then { h with sel := some g } else h
  | _ => h

def islH (i : Nat) (l : List (Migr.Obs X)) : IslH X := l.foldl (islStep i) ⟨[], [], [], none⟩

/-- The migration log entries to be made. -/
def SameEntries (i : Nat) (h : IslH X) (es : List (Migr.Entry X)) : Prop :=
  (∀ e ∈ es, e.dst = i ∧ (e.id, e.x, e.f) ∈ h.news ∧ ∃ g, (e.src, g) ∈ h.got ∧ e.id ∈ g.ids) ∧
  (∀ src g id, (src, g) ∈ h.got → id ∈ g.ids → (∃ x f, (id, x, f) ∈ h.news) → ∃ e ∈ es, e.id = id ∧ e.src = src)

/-- What is promised about the observation `o` after the history `l`. -/
def MigrOk (db : List (Grp X)) (l : List (Migr.Obs X)) : Migr.Obs X → Prop
  | .fetched i src _ g => (dbAfter db l)[src]? = some g ∧ src ∈ (islH i l).conns
  | .refused _ src => (dbAfter db l).length ≤ src
  | .replaced i g _ => g = ⟨((islH i l).got.map (fun p => p.2.ids)).flatten, ((islH i l).got.map (fun p => p.2.xs)).flatten,
      ((islH i l).got.map (fun p => p.2.fs)).flatten⟩
  | .inds i news => news = (islH i l).news
  | .logged i es => SameEntries i (islH i l) es
  | .put i g => (islH i l).sel = some g ∧ i < (dbAfter db l).length
  | _ => True

def MigrHistoryOk (db : List (Grp X)) (l : List (Migr.Obs X)) : Prop := ∀ a o b, l = a ++ o :: b → MigrOk db a o

theorem migrHistory_snoc {db : List (Grp X)} {l : List (Migr.Obs X)} {o : Migr.Obs X} (h : MigrHistoryOk db l) (ho : MigrOk db l o) :
    MigrHistoryOk db (l ++ [o]) := by
  intro a o' b hl
  rcases List.eq_nil_or_concat b with rfl | ⟨b', x, rfl⟩
  · obtain ⟨h1, h2⟩ := List.append_inj' hl rfl
    cases h2; cases h1; exact ho
  · rw [List.concat_eq_append, ← List.cons_append, ← List.append_assoc] at hl
    obtain ⟨h1, -⟩ := List.append_inj' hl rfl
    exact h a o' b' h1

theorem dbAfter_snoc (db : List (Grp X)) (l : List (Migr.Obs X)) (o : Migr.Obs X) : dbAfter db (l ++ [o]) = dbStep (dbAfter db l) o := by
  simp [dbAfter]

theorem islH_snoc (i : Nat) (l : List (Migr.Obs X)) (o : Migr.Obs X) : islH i (l ++ [o]) = islStep i (islH i l) o := by
  simp [islH]

/-! ## Invariant -/

def FetchOk (h : IslH X) (f : Fetch X) : Prop :=
  f.src ∈ h.conns ∧ match f.cont with
    | .p2p => h.got = []
    | .cast cs _ acc => h.conns = cs ∧ h.got = acc

/-- What is known of an island. -/
def MPcOk (h : IslH X) : Migr.Pc X → Prop
  | .idle | .top _ | .evolve _ | .select _ => True
  | .mtype _ cs | .handling _ cs _ | .pick _ cs _ => h.conns = cs ∧ h.got = []
  | .cast _ cs _ _ acc => h.conns = cs ∧ h.got = acc
  | .fetchLock _ f | .fetchCheck _ f | .fetch0 _ f | .fetch1 _ f _ | .fetch2 _ f _ _ | .clear0 _ f _ | .clear1 _ f _ | .clear2 _ f _ | .fetchUnlock _ f _ =>
    FetchOk h f
  | .replace _ acc => h.got = acc
  | .setInds _ acc l | .append _ acc l => h.got = acc ∧ h.news = l
  | .putLock _ g | .putCheck _ g | .put0 _ g | .put1 _ g | .put2 _ g | .putUnlock _ g => h.sel = some g

/-- What is known of the database `db` while an island is in its critical section; `q` is the database according to the
history. -/
def MemOk (q db : List (Grp X)) (i : Nat) : Migr.Pc X → Prop
  | .fetchCheck _ _ | .putCheck _ _ => db = q
  | .fetch0 _ f => db = q ∧ f.src < q.length
  | .fetch1 _ f ids => db = q ∧ ∃ e, q[f.src]? = some e ∧ ids = e.ids
  | .fetch2 _ f ids xs => db = q ∧ ∃ e, q[f.src]? = some e ∧ ids = e.ids ∧ xs = e.xs
  | .clear0 _ f g => db = q ∧ q[f.src]? = some g ∧ f.evict = true
  | .clear1 _ f g => db = q.set f.src ⟨[], g.xs, g.fs⟩ ∧ q[f.src]? = some g ∧ f.evict = true
  | .clear2 _ f g => db = q.set f.src ⟨[], [], g.fs⟩ ∧ q[f.src]? = some g ∧ f.evict = true
  | .fetchUnlock _ f g => db = (if f.evict then q.set f.src ⟨[], [], []⟩ else q) ∧ q[f.src]? = some g
  | .put0 _ _ => db = q ∧ i < q.length
  | .put1 _ g => ∃ e, q[i]? = some e ∧ db = q.set i ⟨g.ids, e.xs, e.fs⟩
  | .put2 _ g => ∃ e, q[i]? = some e ∧ db = q.set i ⟨g.ids, g.xs, e.fs⟩
  | .putUnlock _ g => i < q.length ∧ db = q.set i g
  | _ => False

/-- In the critical section? -/
def _root_.Verif.Migr.Pc.inside : Migr.Pc X → Bool
  | .fetchCheck _ _ | .putCheck _ _ | .fetch0 _ _ | .fetch1 _ _ _ | .fetch2 _ _ _ _ | .clear0 _ _ _ | .clear1 _ _ _ | .clear2 _ _ _ | .fetchUnlock _ _ _
  | .put0 _ _ | .put1 _ _ | .put2 _ _ | .putUnlock _ _ => true
  | _ => false

structure MigrInv (db0 : List (Grp X)) (s : Migr.State X) : Prop where
  ok : MigrHistoryOk db0 s.log
  free : s.owner = none → s.db = dbAfter db0 s.log
  held : ∀ t, s.owner = some t → ∃ pc, s.islands[t]? = some pc ∧ MemOk (dbAfter db0 s.log) s.db t pc
  pcs : ∀ (i : Nat) (pc : Migr.Pc X), s.islands[i]? = some pc → MPcOk (islH i s.log) pc ∧ (pc.inside = true ↔ s.owner = some i)
  mlog : s.mlog = (s.log.filterMap (fun o => match o with | .logged _ es => some es | _ => none)).flatten

/-- The observations leave the history of the other islands alone. -/
def OnlyBy (i : Nat) (l os : List (Migr.Obs X)) : Prop := ∀ j, j ≠ i → islH j (l ++ os) = islH j l

def logEntries (l : List (Migr.Obs X)) : List (Migr.Entry X) :=
  (l.filterMap (fun o => match o with | .logged _ es => some es | _ => none)).flatten

theorem mig_move {db0 : List (Grp X)} {s s' : Migr.State X} (hi : MigrInv db0 s) {i : Nat} {pc pc' : Migr.Pc X} (hp : s.islands[i]? = some pc)
    (os : List (Migr.Obs X)) (hisl : s'.islands = s.islands.set i pc') (hlog : s'.log = s.log ++ os) (hok : MigrHistoryOk db0 s'.log)
    (hby : OnlyBy i s.log os) (hpc : MPcOk (islH i s'.log) pc') (hml : s'.mlog = s.mlog ++ logEntries os)
    (hmem : (s'.owner = s.owner ∧ pc.inside = false ∧ pc'.inside = false ∧ s'.db = s.db ∧ dbAfter db0 s'.log = dbAfter db0 s.log) ∨
      (s'.owner = s.owner ∧ pc.inside = true ∧ pc'.inside = true ∧ MemOk (dbAfter db0 s'.log) s'.db i pc') ∨
      (s.owner = none ∧ s'.owner = some i ∧ pc'.inside = true ∧ MemOk (dbAfter db0 s'.log) s'.db i pc') ∨
      (s'.owner = none ∧ pc.inside = true ∧ pc'.inside = false ∧ s'.db = dbAfter db0 s'.log)) : MigrInv db0 s' := by
  have hlt := (List.getElem?_eq_some_iff.mp hp).1
  have hown := (hi.pcs i pc hp).2
  have hset : s'.islands[i]? = some pc' := by rw [hisl, List.getElem?_set_self hlt]
  refine ⟨hok, ?_, ?_, ?_, ?_⟩
  · intro ho
    rcases hmem with ⟨h1, h2, h3, h4, h5⟩ | ⟨h1, h2, h3, h4⟩ | ⟨h1, h2, h3, h4⟩ | ⟨h1, h2, h3, h4⟩
    · rw [h4, h5]; exact hi.free (by rw [← h1]; exact ho)
    · rw [h1, hown.mp h2] at ho; cases ho
    · rw [h2] at ho; cases ho
    · exact h4
  · intro t ht
    rcases hmem with ⟨h1, h2, h3, h4, h5⟩ | ⟨h1, h2, h3, h4⟩ | ⟨h1, h2, h3, h4⟩ | ⟨h1, h2, h3, h4⟩
    · rw [h1] at ht
      obtain ⟨p, hp1, hp2⟩ := hi.held t ht
      have hti : i ≠ t := by
        rintro rfl; rw [hown.mpr ht] at h2; cases h2
      exact ⟨p, by rw [hisl, List.getElem?_set_ne hti]; exact hp1, by rw [h5, h4]; exact hp2⟩
    · rw [h1, hown.mp h2] at ht; cases ht
      exact ⟨pc', hset, h4⟩
    · rw [h2] at ht; cases ht; exact ⟨pc', hset, h4⟩
    · rw [h1] at ht; cases ht
  · intro j p hj
    by_cases hij : i = j
    · subst hij
      rw [hset] at hj; cases hj
      refine ⟨hpc, ?_⟩
      rcases hmem with ⟨h1, h2, h3, h4, h5⟩ | ⟨h1, h2, h3, h4⟩ | ⟨h1, h2, h3, h4⟩ | ⟨h1, h2, h3, h4⟩
      · rw [h1, h3, ← hown, h2]
      · rw [h1, h3, ← hown, h2]
      · rw [h2, h3]; simp
      · rw [h1, h3]; simp
    · rw [hisl, List.getElem?_set_ne hij] at hj
      obtain ⟨h01, h02⟩ := hi.pcs j p hj
      refine ⟨by rw [hlog, hby j (Ne.symm hij)]; exact h01, ?_⟩
      rw [h02]
      rcases hmem with ⟨h1, -⟩ | ⟨h1, -⟩ | ⟨h1, h2, -⟩ | ⟨h1, h2, -⟩
      · rw [h1]
      · rw [h1]
      · rw [h1, h2]; simp [hij]
      · rw [h1, hown.mp h2]; simp [hij]
  · rw [hml, hi.mlog, hlog]
    simp [logEntries]

theorem onlyBy_nil (i : Nat) (l : List (Migr.Obs X)) : OnlyBy i l [] := by
  intro j _; rw [List.append_nil]

/-- An island moves without being observed and without touching the database. -/
theorem mig_quiet {db0 : List (Grp X)} {s : Migr.State X} (hi : MigrInv db0 s) {i : Nat} {pc : Migr.Pc X} (hp : s.islands[i]? = some pc)
    (pc' : Migr.Pc X) (hin : pc.inside = false) (hin' : pc'.inside = false) (hpc : MPcOk (islH i s.log) pc') : MigrInv db0 (Migr.goto s i pc') :=
  mig_move hi hp [] rfl (by simp [Migr.goto]) hi.ok (onlyBy_nil _ _) hpc (by simp [Migr.goto, logEntries]) (Or.inl ⟨rfl, hin, hin', rfl, rfl⟩)

/-- An island is observed, without touching the database. -/
theorem mig_say {db0 : List (Grp X)} {s : Migr.State X} (hi : MigrInv db0 s) {i : Nat} {pc : Migr.Pc X} (hp : s.islands[i]? = some pc)
    (pc' : Migr.Pc X) (o : Migr.Obs X) (hin : pc.inside = false) (hin' : pc'.inside = false) (hok : MigrOk db0 s.log o)
    (hby : OnlyBy i s.log [o]) (hpc : MPcOk (islStep i (islH i s.log) o) pc') (hdb : ∀ q, dbStep q o = q) (hml : logEntries [o] = []) :
    MigrInv db0 (Migr.say s i pc' o) :=
  mig_move hi hp [o] rfl rfl (migrHistory_snoc hi.ok hok) hby (by simp only [Migr.say]; rw [islH_snoc]; exact hpc)
    (by rw [hml, List.append_nil]; rfl) (Or.inl ⟨rfl, hin, hin', rfl, by simp only [Migr.say]; rw [dbAfter_snoc, hdb]⟩)

/-- An island moves in its critical section. -/
theorem mig_crit {db0 : List (Grp X)} {s : Migr.State X} (hi : MigrInv db0 s) {i : Nat} {pc : Migr.Pc X} (hp : s.islands[i]? = some pc)
    (db' : List (Grp X)) (pc' : Migr.Pc X) (hin : pc.inside = true) (hin' : pc'.inside = true) (hpc : MPcOk (islH i s.log) pc')
    (hmem : MemOk (dbAfter db0 s.log) s.db i pc → MemOk (dbAfter db0 s.log) db' i pc') :
    MigrInv db0 { s with db := db', islands := s.islands.set i pc' } := by
  refine mig_move hi hp [] rfl (by simp) hi.ok (onlyBy_nil _ _) hpc (by simp [logEntries]) (Or.inr (Or.inl ⟨rfl, hin, hin', ?_⟩))
  obtain ⟨p, hp1, hp2⟩ := hi.held i ((hi.pcs i pc hp).2.mp hin)
  rw [hp] at hp1; cases hp1
  exact hmem hp2

theorem mem_of_inside {db0 : List (Grp X)} {s : Migr.State X} (hi : MigrInv db0 s) {i : Nat} {pc : Migr.Pc X} (hp : s.islands[i]? = some pc)
    (hin : pc.inside = true) : MemOk (dbAfter db0 s.log) s.db i pc := by
  obtain ⟨p, hp1, hp2⟩ := hi.held i ((hi.pcs i pc hp).2.mp hin)
  rw [hp] at hp1; cases hp1
  exact hp2

theorem onlyBy_one {i : Nat} {l : List (Migr.Obs X)} {o : Migr.Obs X} (h : ∀ j h, j ≠ i → islStep j h o = h) : OnlyBy i l [o] := by
  intro j hj; rw [islH_snoc, h j _ hj]

theorem setEntry_db (s : Migr.State X) (src : Nat) (f : Grp X → Grp X) {e : Grp X} (h : s.db[src]? = some e) (i : Nat) (pc : Migr.Pc X) :
    Migr.goto (Migr.setEntry s src f) i pc = { s with db := s.db.set src (f e), islands := s.islands.set i pc } := by
  unfold Migr.setEntry; rw [h]; rfl

theorem entry_eq {s : Migr.State X} {src : Nat} {e : Grp X} (h : s.db[src]? = some e) : Migr.entry s src = e := by
  unfold Migr.entry; rw [List.getD_eq_getElem?_getD, h]; rfl

theorem mem_ended {i : Nat} {l : List (Migr.Obs X)} {e : Option Exn} : OnlyBy i l [.ended i e] := onlyBy_one (fun _ _ _ => rfl)

theorem findNew_some {news : List (Nat × X × X)} {id : Nat} {xf : X × X} (h : Migr.findNew news id = some xf) : (id, xf.1, xf.2) ∈ news := by
  unfold Migr.findNew at h
  rw [Option.map_eq_some_iff] at h
  obtain ⟨e, he, rfl⟩ := h
  have h1 := List.find?_some he
  have h2 := List.mem_of_find?_eq_some he
  simp only [beq_iff_eq] at h1
  rw [List.mem_reverse] at h2
  subst h1
  exact h2

theorem findNew_none {news : List (Nat × X × X)} {id : Nat} (h : Migr.findNew news id = none) (x f : X) : (id, x, f) ∉ news := by
  unfold Migr.findNew at h
  rw [Option.map_eq_none_iff, List.find?_eq_none] at h
  intro hm
  exact h _ (List.mem_reverse.mpr hm) (by simp)

theorem logLoop_spec (news : List (Nat × X × X)) (src dst : Nat) (ids : List Nat) (m : List (Migr.Entry X)) :
    ∃ es, ids.foldl (Migr.logStep news src dst) m = m ++ es ∧
      (∀ e ∈ es, e.dst = dst ∧ (e.id, e.x, e.f) ∈ news ∧ e.src = src ∧ e.id ∈ ids) ∧
      (∀ id ∈ ids, (∃ x f, (id, x, f) ∈ news) → ∃ e ∈ es, e.id = id ∧ e.src = src) := by
  induction ids generalizing m with
  | nil => exact ⟨[], by simp, by simp, by simp⟩
  | cons id ids ih =>
    rw [List.foldl_cons]
    cases hf : Migr.findNew news id with
    | none =>
      rw [show Migr.logStep news src dst m id = m by simp only [Migr.logStep, hf]]
      obtain ⟨es, h1, h2, h3⟩ := ih m
      refine ⟨es, h1, fun e he => ?_, fun id' hid hx => ?_⟩
      · obtain ⟨a, b, c, d⟩ := h2 e he; exact ⟨a, b, c, List.mem_cons_of_mem _ d⟩
      · rcases List.mem_cons.mp hid with rfl | hid
        · obtain ⟨x, f, hxf⟩ := hx; exact absurd hxf (findNew_none hf x f)
        · exact h3 id' hid hx
    | some xf =>
      rw [show Migr.logStep news src dst m id = m ++ [⟨id, xf.1, xf.2, src, dst⟩] by simp only [Migr.logStep, hf]]
      obtain ⟨es, h1, h2, h3⟩ := ih (m ++ [⟨id, xf.1, xf.2, src, dst⟩])
      refine ⟨⟨id, xf.1, xf.2, src, dst⟩ :: es, by simpa using h1, fun e he => ?_, fun id' hid hx => ?_⟩
      · rcases List.mem_cons.mp he with rfl | he
        · exact ⟨rfl, findNew_some hf, rfl, List.mem_cons_self ..⟩
        · obtain ⟨a, b, c, d⟩ := h2 e he; exact ⟨a, b, c, List.mem_cons_of_mem _ d⟩
      · rcases List.mem_cons.mp hid with rfl | hid
        · exact ⟨_, List.mem_cons_self .., rfl, rfl⟩
        · obtain ⟨e, he, h4⟩ := h3 id' hid hx; exact ⟨e, List.mem_cons_of_mem _ he, h4⟩

theorem buildLog_spec (news : List (Nat × X × X)) (dst : Nat) (acc : List (Nat × Grp X)) :
    (∀ e ∈ Migr.buildLog news dst acc, e.dst = dst ∧ (e.id, e.x, e.f) ∈ news ∧ ∃ g, (e.src, g) ∈ acc ∧ e.id ∈ g.ids) ∧
    (∀ src g id, (src, g) ∈ acc → id ∈ g.ids → (∃ x f, (id, x, f) ∈ news) → ∃ e ∈ Migr.buildLog news dst acc, e.id = id ∧ e.src = src) := by
  have key : ∀ (acc : List (Nat × Grp X)) (m : List (Migr.Entry X)), ∃ es,
      acc.foldl (fun m p => p.2.ids.foldl (Migr.logStep news p.1 dst) m) m = m ++ es ∧
      (∀ e ∈ es, e.dst = dst ∧ (e.id, e.x, e.f) ∈ news ∧ ∃ g, (e.src, g) ∈ acc ∧ e.id ∈ g.ids) ∧
      (∀ src g id, (src, g) ∈ acc → id ∈ g.ids → (∃ x f, (id, x, f) ∈ news) → ∃ e ∈ es, e.id = id ∧ e.src = src) := by
    intro acc
    induction acc with
    | nil => intro m; exact ⟨[], by simp, by simp, by simp⟩
    | cons p acc ih =>
      intro m
      obtain ⟨es1, a1, a2, a3⟩ := logLoop_spec news p.1 dst p.2.ids m
      obtain ⟨es2, b1, b2, b3⟩ := ih (m ++ es1)
      refine ⟨es1 ++ es2, by rw [List.foldl_cons, a1, b1, List.append_assoc], fun e he => ?_, fun src g id hm hid hx => ?_⟩
      · rcases List.mem_append.mp he with he | he
        · obtain ⟨c1, c2, c3, c4⟩ := a2 e he
          exact ⟨c1, c2, p.2, by rw [c3]; exact List.mem_cons_self .., c4⟩
        · obtain ⟨c1, c2, g, c3, c4⟩ := b2 e he
          exact ⟨c1, c2, g, List.mem_cons_of_mem _ c3, c4⟩
      · rcases List.mem_cons.mp hm with h | h
        · subst h
          obtain ⟨e, he, h4⟩ := a3 id hid hx; exact ⟨e, List.mem_append_left _ he, h4⟩
        · obtain ⟨e, he, h4⟩ := b3 src g id h hid hx; exact ⟨e, List.mem_append_right _ he, h4⟩
  obtain ⟨es, h1, h2⟩ := key acc []
  unfold Migr.buildLog
  rw [h1, List.nil_append]
  exact h2

theorem allMigrants_spec (acc : List (Nat × Grp X)) : Migr.allMigrants acc =
    ⟨(acc.map (fun p => p.2.ids)).flatten, (acc.map (fun p => p.2.xs)).flatten, (acc.map (fun p => p.2.fs)).flatten⟩ := by
  have key : ∀ (acc : List (Nat × Grp X)) (m : Grp X), acc.foldl (fun m p => m.append p.2) m =
      ⟨m.ids ++ (acc.map (fun p => p.2.ids)).flatten, m.xs ++ (acc.map (fun p => p.2.xs)).flatten, m.fs ++ (acc.map (fun p => p.2.fs)).flatten⟩ := by
    intro acc
    induction acc with
    | nil => intro m; simp
    | cons p acc ih => intro m; rw [List.foldl_cons, ih]; simp [Grp.append]
  unfold Migr.allMigrants
  rw [key]; simp [Grp.none]

theorem mig_step {db0 : List (Grp X)} {s s' : Migr.State X} (hi : MigrInv db0 s) {i : Nat} {inp : Input X} (h : Migr.step s i inp = some s') :
    MigrInv db0 s' := by
  unfold Migr.step at h
  cases hp : s.islands[i]? with
  | none => rw [hp] at h; cases h
  | some pc =>
    rw [hp] at h
    simp only at h
    have hP := (hi.pcs i pc hp).1
    cases pc with
    | idle => cases inp <;> simp at h
    | top k =>
      cases k with
      | zero =>
        cases inp <;> simp at h
        subst h
        exact mig_say hi hp _ _ rfl rfl trivial mem_ended trivial (fun _ => rfl) rfl
      | succ k =>
        cases inp <;> simp at h
        · subst h
          rename_i cs
          refine mig_say hi hp _ _ rfl ?_ trivial (onlyBy_one (fun j h hj => by simp [islStep, Ne.symm hj])) ?_ (fun _ => rfl) rfl
          · split <;> rfl
          · split
            · trivial
            · simp [MPcOk, islStep]
        · subst h
          exact mig_say hi hp _ _ rfl rfl trivial mem_ended trivial (fun _ => rfl) rfl
    | mtype k cs =>
      cases inp <;> simp at h
      subst h
      exact mig_quiet hi hp _ rfl rfl hP
    | handling k cs p2p =>
      cases inp <;> simp at h
      subst h
      refine mig_quiet hi hp _ rfl ?_ ?_
      · split <;> rfl
      · split
        · exact hP
        · exact hP
    | pick k cs ev =>
      cases inp <;> simp at h
      rename_i j acc
      cases hj : cs[j]? with
      | none => rw [hj] at h; cases h
      | some src =>
        rw [hj] at h
        simp only [Option.some.injEq] at h
        subst h
        refine mig_quiet hi hp _ rfl ?_ ?_
        · split <;> rfl
        · split
          · exact ⟨by rw [hP.1]; exact List.mem_of_getElem? hj, hP.2⟩
          · trivial
    | cast k cs ev j acc =>
      cases inp <;> simp at h
      · obtain ⟨-, rfl⟩ := h
        exact mig_quiet hi hp _ rfl rfl hP.2
      · rename_i j' yes
        cases hj : cs[j]? with
        | none => rw [hj] at h; cases h
        | some src =>
          rw [hj] at h
          simp only [Option.some.injEq] at h
          subst h
          refine mig_quiet hi hp _ rfl ?_ ?_
          · split <;> rfl
          · split
            · exact ⟨by rw [hP.1]; exact List.mem_of_getElem? hj, hP⟩
            · exact hP
    | fetchLock k f =>
      cases inp <;> simp at h
      obtain ⟨ho, rfl⟩ := h
      exact mig_move hi hp [] rfl (by simp [Migr.goto]) hi.ok (onlyBy_nil _ _) hP (by simp [Migr.goto, logEntries])
        (Or.inr (Or.inr (Or.inl ⟨ho, rfl, rfl, hi.free ho⟩)))
    | fetchCheck k f =>
      cases inp <;> simp at h
      have hm := mem_of_inside hi hp rfl
      split at h
      · rename_i hlen
        cases h
        have e1 : dbAfter db0 (s.log ++ [.refused i f.src, .ended i (some .outOfRange)]) = dbAfter db0 s.log := by
          simp [dbAfter, dbStep]
        refine mig_move hi hp [.refused i f.src, .ended i (some .outOfRange)] rfl rfl ?_ ?_ trivial (by simp [logEntries])
          (Or.inr (Or.inr (Or.inr ⟨rfl, rfl, rfl, ?_⟩)))
        · have := migrHistory_snoc (migrHistory_snoc hi.ok (o := .refused i f.src) (by
            change (dbAfter db0 s.log).length ≤ f.src
            rw [← show s.db = dbAfter db0 s.log from hm]; exact hlen)) (o := .ended i (some .outOfRange)) trivial
          simpa using this
        · intro j _; simp [islH, islStep]
        · simp only [e1]; exact hm
      · rename_i hlen
        cases h
        refine mig_crit hi hp s.db _ rfl rfl hP (fun hm => ⟨hm, ?_⟩)
        rw [← show s.db = dbAfter db0 s.log from hm]; omega
    | fetch0 k f =>
      cases inp <;> simp at h
      subst h
      refine mig_crit hi hp s.db _ rfl rfl hP (fun hm => ⟨hm.1, ?_⟩)
      obtain ⟨h1, h2⟩ := hm
      exact ⟨_, List.getElem?_eq_getElem h2, by rw [entry_eq (by rw [h1]; exact List.getElem?_eq_getElem h2)]⟩
    | fetch1 k f ids =>
      cases inp <;> simp at h
      subst h
      refine mig_crit hi hp s.db _ rfl rfl hP (fun hm => ⟨hm.1, ?_⟩)
      obtain ⟨h1, e, h2, h3⟩ := hm
      exact ⟨e, h2, h3, by rw [entry_eq (by rw [h1]; exact h2)]⟩
    | fetch2 k f ids xs =>
      cases inp <;> simp at h
      subst h
      split
      · rename_i hev
        refine mig_crit hi hp s.db _ rfl rfl hP (fun hm => ?_)
        obtain ⟨h1, e, h2, h3, h4⟩ := hm
        refine ⟨h1, ?_, hev⟩
        rw [entry_eq (by rw [h1]; exact h2), h2, h3, h4]
      · rename_i hev
        refine mig_crit hi hp s.db _ rfl rfl hP (fun hm => ?_)
        obtain ⟨h1, e, h2, h3, h4⟩ := hm
        refine ⟨by rw [if_neg hev]; exact h1, ?_⟩
        rw [entry_eq (by rw [h1]; exact h2), h2, h3, h4]
    | clear0 k f g =>
      cases inp <;> simp at h
      subst h
      obtain ⟨m1, m2, m3⟩ := mem_of_inside hi hp rfl
      rw [setEntry_db s f.src _ (e := g) (by rw [m1]; exact m2)]
      refine mig_crit hi hp _ _ rfl rfl hP (fun _ => ⟨by rw [m1], m2, m3⟩)
    | clear1 k f g =>
      cases inp <;> simp at h
      subst h
      obtain ⟨m1, m2, m3⟩ := mem_of_inside hi hp rfl
      have hlt := (List.getElem?_eq_some_iff.mp m2).1
      rw [setEntry_db s f.src _ (e := ⟨[], g.xs, g.fs⟩) (by rw [m1, List.getElem?_set_self hlt])]
      refine mig_crit hi hp _ _ rfl rfl hP (fun _ => ⟨by rw [m1, List.set_set], m2, m3⟩)
    | clear2 k f g =>
      cases inp <;> simp at h
      subst h
      obtain ⟨m1, m2, m3⟩ := mem_of_inside hi hp rfl
      have hlt := (List.getElem?_eq_some_iff.mp m2).1
      rw [setEntry_db s f.src _ (e := ⟨[], [], g.fs⟩) (by rw [m1, List.getElem?_set_self hlt])]
      refine mig_crit hi hp _ _ rfl rfl hP (fun _ => ⟨by rw [m1, List.set_set, if_pos m3], m2⟩)
    | fetchUnlock k f g =>
      cases inp <;> simp at h
      subst h
      obtain ⟨m1, m2⟩ := mem_of_inside hi hp rfl
      refine mig_move hi hp [.fetched i f.src f.evict g] rfl rfl (migrHistory_snoc hi.ok ⟨m2, hP.1⟩)
        (onlyBy_one (fun j h hj => by simp [islStep, Ne.symm hj])) ?_ (by simp [logEntries, Migr.say]) (Or.inr (Or.inr (Or.inr ⟨rfl, rfl, ?_, ?_⟩)))
      · simp only [Migr.say]
        rw [islH_snoc]
        unfold Migr.resume
        obtain ⟨-, hc⟩ := hP
        cases hcont : f.cont with
        | p2p => rw [hcont] at hc; simp [MPcOk, islStep, hc]
        | cast cs j acc => rw [hcont] at hc; simp only at hc; simp [MPcOk, islStep, hc.1, hc.2]
      · unfold Migr.resume; split <;> rfl
      · simp only [Migr.say]
        rw [dbAfter_snoc, m1]
        cases f.evict <;> rfl
    | replace k acc =>
      cases inp <;> simp at h
      · subst h
        refine mig_say hi hp _ _ rfl rfl ?_ (onlyBy_one (fun j h hj => by simp [islStep, Ne.symm hj])) ?_ (fun _ => rfl) rfl
        · change _ = _
          rw [allMigrants_spec, show (islH i s.log).got = acc from hP]
        · exact ⟨by simp only [islStep, if_true]; exact hP, by simp [islStep]⟩
      · subst h
        exact mig_say hi hp _ _ rfl rfl trivial mem_ended trivial (fun _ => rfl) rfl
    | setInds k acc l =>
      cases inp <;> simp at h
      · subst h
        exact mig_say hi hp _ _ rfl rfl hP.2.symm (onlyBy_one (fun _ _ _ => rfl)) hP (fun _ => rfl) rfl
      · subst h
        exact mig_say hi hp _ _ rfl rfl trivial mem_ended trivial (fun _ => rfl) rfl
    | append k acc l =>
      cases inp <;> simp at h
      subst h
      refine mig_move hi hp [.logged i (Migr.buildLog l i acc)] rfl rfl (migrHistory_snoc hi.ok ?_) (onlyBy_one (fun _ _ _ => rfl)) trivial
        (by simp [logEntries, Migr.say]) (Or.inl ⟨rfl, rfl, rfl, rfl, ?_⟩)
      · obtain ⟨h1, h2⟩ := hP
        change SameEntries i (islH i s.log) _
        unfold SameEntries
        rw [h1, h2]
        exact buildLog_spec l i acc
      · simp only [Migr.say]; rw [dbAfter_snoc]; rfl
    | evolve k =>
      cases inp <;> simp at h
      · subst h; exact mig_quiet hi hp _ rfl rfl trivial
      · subst h
        exact mig_say hi hp _ _ rfl rfl trivial mem_ended trivial (fun _ => rfl) rfl
    | select k =>
      cases inp <;> simp at h
      · subst h
        exact mig_say hi hp _ _ rfl rfl trivial (onlyBy_one (fun j h hj => by simp [islStep, Ne.symm hj])) (by simp [MPcOk, islStep]) (fun _ => rfl) rfl
      · subst h
        exact mig_say hi hp _ _ rfl rfl trivial mem_ended trivial (fun _ => rfl) rfl
    | putLock k g =>
      cases inp <;> simp at h
      obtain ⟨ho, rfl⟩ := h
      exact mig_move hi hp [] rfl (by simp [Migr.goto]) hi.ok (onlyBy_nil _ _) hP (by simp [Migr.goto, logEntries])
        (Or.inr (Or.inr (Or.inl ⟨ho, rfl, rfl, hi.free ho⟩)))
    | putCheck k g =>
      cases inp <;> simp at h
      have hm := mem_of_inside hi hp rfl
      split at h
      · rename_i hlen
        cases h
        have e1 : dbAfter db0 (s.log ++ [.refused i i, .ended i (some .outOfRange)]) = dbAfter db0 s.log := by
          simp [dbAfter, dbStep]
        refine mig_move hi hp [.refused i i, .ended i (some .outOfRange)] rfl rfl ?_ ?_ trivial (by simp [logEntries])
          (Or.inr (Or.inr (Or.inr ⟨rfl, rfl, rfl, ?_⟩)))
        · have := migrHistory_snoc (migrHistory_snoc hi.ok (o := .refused i i) (by
            change (dbAfter db0 s.log).length ≤ i
            rw [← show s.db = dbAfter db0 s.log from hm]; exact hlen)) (o := .ended i (some .outOfRange)) trivial
          simpa using this
        · intro j _; simp [islH, islStep]
        · simp only [e1]; exact hm
      · rename_i hlen
        cases h
        refine mig_crit hi hp s.db _ rfl rfl hP (fun hm => ⟨hm, ?_⟩)
        rw [← show s.db = dbAfter db0 s.log from hm]; omega
    | put0 k g =>
      cases inp <;> simp at h
      subst h
      obtain ⟨m1, m2⟩ := mem_of_inside hi hp rfl
      have he := List.getElem?_eq_getElem m2
      rw [setEntry_db s i _ (by rw [m1]; exact he)]
      exact mig_crit hi hp _ _ rfl rfl hP (fun _ => ⟨_, he, by rw [m1]⟩)
    | put1 k g =>
      cases inp <;> simp at h
      subst h
      obtain ⟨e, m1, m2⟩ := mem_of_inside hi hp rfl
      have hlt := (List.getElem?_eq_some_iff.mp m1).1
      rw [setEntry_db s i _ (e := ⟨g.ids, e.xs, e.fs⟩) (by rw [m2, List.getElem?_set_self hlt])]
      exact mig_crit hi hp _ _ rfl rfl hP (fun _ => ⟨e, m1, by rw [m2, List.set_set]⟩)
    | put2 k g =>
      cases inp <;> simp at h
      subst h
      obtain ⟨e, m1, m2⟩ := mem_of_inside hi hp rfl
      have hlt := (List.getElem?_eq_some_iff.mp m1).1
      rw [setEntry_db s i _ (e := ⟨g.ids, g.xs, e.fs⟩) (by rw [m2, List.getElem?_set_self hlt])]
      exact mig_crit hi hp _ _ rfl rfl hP (fun _ => ⟨hlt, by rw [m2, List.set_set]⟩)
    | putUnlock k g =>
      cases inp <;> simp at h
      subst h
      obtain ⟨m1, m2⟩ := mem_of_inside hi hp rfl
      refine mig_move hi hp [.put i g] rfl rfl (migrHistory_snoc hi.ok ⟨hP, m1⟩)
        (onlyBy_one (fun _ _ _ => rfl)) trivial (by simp [logEntries, Migr.say, Migr.nextIter]) (Or.inr (Or.inr (Or.inr ⟨rfl, rfl, rfl, ?_⟩)))
      simp only [Migr.say, Migr.nextIter]
      rw [dbAfter_snoc, m2]; rfl

theorem mig_next {db0 : List (Grp X)} {s s' : Migr.State X} (hi : MigrInv db0 s) {e : Migr.Ev X} (h : Migr.next s e = some s') :
    MigrInv db0 s' := by
  cases e with
  | start i n =>
    simp only [Migr.next] at h
    split at h
    · rename_i hp
      cases h
      exact mig_say hi hp _ _ rfl rfl trivial (onlyBy_one (fun _ _ _ => rfl)) trivial (fun _ => rfl) rfl
    · cases h
  | step i inp => exact mig_step hi h
  | setType b => simp only [Migr.next, Option.some.injEq] at h; subst h; exact ⟨hi.ok, hi.free, hi.held, hi.pcs, hi.mlog⟩
  | setHandling b => simp only [Migr.next, Option.some.injEq] at h; subst h; exact ⟨hi.ok, hi.free, hi.held, hi.pcs, hi.mlog⟩
  | setDb db =>
    simp only [Migr.next] at h
    split at h
    · rename_i ho
      cases h
      refine ⟨migrHistory_snoc hi.ok trivial, fun _ => ?_, fun t ht => ?_, fun j p hj => ?_, ?_⟩
      · rw [dbAfter_snoc]; rfl
      · rw [ho] at ht; cases ht
      · have := hi.pcs j p hj
        refine ⟨?_, this.2⟩
        rw [islH_snoc]; exact this.1
      · simpa using hi.mlog
    · cases h

theorem mig_init (db : List (Grp X)) (n : Nat) : MigrInv db (Migr.init db n) := by
  refine ⟨by intro a o b h; simp [Migr.init] at h, fun _ => rfl, fun t h => by simp [Migr.init] at h, fun j p hj => ?_, rfl⟩
  simp only [Migr.init, List.getElem?_replicate] at hj
  split at hj
  · cases hj; exact ⟨trivial, by simp [Migr.Pc.inside, Migr.init]⟩
  · cases hj

theorem mig_run {db : List (Grp X)} {n : Nat} {es : List (Migr.Ev X)} {s : Migr.State X} (h : Migr.run (Migr.init db n) es = some s) :
    MigrInv db s := by
  have key : ∀ (es : List (Migr.Ev X)) (s s' : Migr.State X), MigrInv db s → Migr.run s es = some s' → MigrInv db s' := by
    intro es
    induction es with
    | nil => intro s s' hi h; simp only [Migr.run, Option.some.injEq] at h; subst h; exact hi
    | cons e es ih =>
      intro s s' hi h
      simp only [Migr.run] at h
      split at h
      · cases h
      · rename_i s1 h1; exact ih s1 s' (mig_next hi h1) h
  exact key es _ s (mig_init db n) h

/-! ## Theorems -/

/-- Does the observation change the entry `src`? -/
def touches (src : Nat) : Migr.Obs X → Prop
  | .fetched _ s ev _ => ev = true ∧ s = src
  | .put i _ => i = src
  | .setDb _ => True
  | _ => False

theorem dbStep_untouched {src : Nat} {o : Migr.Obs X} (h : ¬ touches src o) (q : List (Grp X)) : (dbStep q o)[src]? = q[src]? := by
  cases o with
  | fetched i s ev g =>
    cases ev with
    | false => rfl
    | true => simp only [dbStep]; rw [List.getElem?_set_ne]; intro he; exact h ⟨rfl, he⟩
  | put i g => simp only [dbStep]; rw [List.getElem?_set_ne]; intro he; exact h he
  | setDb d => exact absurd trivial h
  | _ => rfl

theorem dbAfter_untouched {src : Nat} (l : List (Migr.Obs X)) (q : List (Grp X)) (h : ∀ o ∈ l, ¬ touches src o) :
    (dbAfter q l)[src]? = q[src]? := by
  induction l generalizing q with
  | nil => rfl
  | cons o l ih =>
    have : dbAfter q (o :: l) = dbAfter (dbStep q o) l := rfl
    rw [this, ih _ (fun x hx => h x (List.mem_cons_of_mem _ hx)), dbStep_untouched (h o (List.mem_cons_self ..))]

theorem dbAfter_append (q : List (Grp X)) (a b : List (Migr.Obs X)) : dbAfter q (a ++ b) = dbAfter (dbAfter q a) b := by
  simp [dbAfter]

/-- Where the contents of an entry come from. -/
theorem dbAfter_origin {src : Nat} {g : Grp X} (db : List (Grp X)) (l : List (Migr.Obs X)) (h : (dbAfter db l)[src]? = some g) :
    (db[src]? = some g ∧ ∀ o ∈ l, ¬ touches src o) ∨
    ∃ a o b, l = a ++ o :: b ∧ (∀ o ∈ b, ¬ touches src o) ∧
      (o = .put src g ∨ (∃ d, o = .setDb d ∧ d[src]? = some g) ∨ (g = ⟨[], [], []⟩ ∧ ∃ i g', o = .fetched i src true g')) := by
  induction l using List.reverseRecOn with
  | nil => exact Or.inl ⟨h, by simp⟩
  | append_singleton l o ih =>
    rw [dbAfter_snoc] at h
    by_cases ht : touches src o
    · right
      refine ⟨l, o, [], rfl, by simp, ?_⟩
      cases o with
      | fetched i s ev g' =>
        obtain ⟨rfl, rfl⟩ := ht
        right; right
        simp only [dbStep, List.getElem?_set] at h
        simp at h
        exact ⟨h.2.symm, i, g', rfl⟩
      | put i g' =>
        have : i = src := ht
        subst this
        simp only [dbStep, List.getElem?_set] at h
        simp at h
        left; rw [h.2]
      | setDb d => exact Or.inr (Or.inl ⟨d, rfl, h⟩)
      | _ => exact ht.elim
    · rw [dbStep_untouched ht] at h
      rcases ih h with ⟨h1, h2⟩ | ⟨a, o', b, rfl, h2, h3⟩
      · left
        refine ⟨h1, fun x hx => ?_⟩
        rcases List.mem_append.mp hx with hx | hx
        · exact h2 x hx
        · simp at hx; subst hx; exact ht
      · right
        refine ⟨a, o', b ++ [o], by simp, fun x hx => ?_, h3⟩
        rcases List.mem_append.mp hx with hx | hx
        · exact h2 x hx
        · simp at hx; subst hx; exact ht

/-- Where the fetches of an iteration are. -/
theorem got_mem {i src : Nat} {g : Grp X} (l : List (Migr.Obs X)) (h : (src, g) ∈ (islH i l).got) :
    ∃ a ev b, l = a ++ .fetched i src ev g :: b ∧ ∀ cs, .conns i cs ∉ b := by
  induction l using List.reverseRecOn with
  | nil => simp [islH] at h
  | append_singleton l o ih =>
    rw [islH_snoc] at h
    have old : (src, g) ∈ (islH i l).got → (∀ cs, o ≠ .conns i cs) → ∃ a ev b, l ++ [o] = a ++ .fetched i src ev g :: b ∧ ∀ cs, .conns i cs ∉ b := by
      intro hm hc
      obtain ⟨a, ev, b, h1, h2⟩ := ih hm
      refine ⟨a, ev, b ++ [o], by simp [h1], fun cs hcs => ?_⟩
      rcases List.mem_append.mp hcs with hx | hx
      · exact h2 cs hx
      · simp at hx; exact hc cs hx.symm
    cases o with
    | conns j cs =>
      simp only [islStep] at h
      split at h
      · simp at h
      · rename_i hj; exact old h (fun cs' hc => by cases hc; exact hj rfl)
    | fetched j s ev g' =>
      simp only [islStep] at h
      split at h
      · rename_i hj
        rcases List.mem_append.mp h with h | h
        · exact old h (fun cs' hc => by cases hc)
        · simp at h
          obtain ⟨rfl, rfl⟩ := h
          exact ⟨l, ev, [], by rw [hj], by simp⟩
      · exact old h (fun cs' hc => by cases hc)
    | replaced j g' n =>
      simp only [islStep] at h
      split at h
      · exact old h (fun cs' hc => by cases hc)
      · exact old h (fun cs' hc => by cases hc)
    | selected j g' =>
      simp only [islStep] at h
      split at h
      · exact old h (fun cs' hc => by cases hc)
      · exact old h (fun cs' hc => by cases hc)
    | _ => exact old h (fun cs' hc => by cases hc)

/-- **C41.** The migrants given to the replacement policy of an island are exactly the groups the island fetched from the
database in this iteration, in order; the migration log lists exactly the migrants whose ID is among the individuals the
policy returned, with source and destination. -/
theorem C41_delivery (db : List (Grp X)) (n : Nat) {es : List (Migr.Ev X)} {s : Migr.State X} (h : Migr.run (Migr.init db n) es = some s)
    (a b : List (Migr.Obs X)) (i : Nat) :
    (∀ g news, s.log = a ++ .replaced i g news :: b →
      g = ⟨((islH i a).got.map (fun p => p.2.ids)).flatten, ((islH i a).got.map (fun p => p.2.xs)).flatten, ((islH i a).got.map (fun p => p.2.fs)).flatten⟩) ∧
    (∀ news, s.log = a ++ .inds i news :: b → news = (islH i a).news) ∧
    (∀ es, s.log = a ++ .logged i es :: b → SameEntries i (islH i a) es) ∧
    s.mlog = (s.log.filterMap (fun o => match o with | .logged _ es => some es | _ => none)).flatten :=
  have hi := mig_run h
  ⟨fun _ _ hl => hi.ok a _ b hl, fun _ hl => hi.ok a _ b hl, fun _ hl => hi.ok a _ b hl, hi.mlog⟩

/-- **C41.** Every migrant given to the replacement policy of an island was placed in the database by the selection policy
of an island connected to it (or by the user); nothing touched that entry in between. -/
theorem C41_provenance (db : List (Grp X)) (n : Nat) {es : List (Migr.Ev X)} {s : Migr.State X} (h : Migr.run (Migr.init db n) es = some s)
    (hdb : ∀ g ∈ db, g.ids = []) (a b : List (Migr.Obs X)) (i id : Nat) (g : Grp X) (news : List (Nat × X × X))
    (hl : s.log = a ++ .replaced i g news :: b) (hid : id ∈ g.ids) :
    ∃ src g' ev a1 o a2 a3, id ∈ g'.ids ∧ a = a1 ++ o :: (a2 ++ .fetched i src ev g' :: a3) ∧ (∀ o ∈ a2, ¬ touches src o) ∧
      src ∈ (islH i (a1 ++ o :: a2)).conns ∧
      ((o = .put src g' ∧ (islH src a1).sel = some g') ∨ ∃ d, o = .setDb d ∧ d[src]? = some g') := by
  have hi := mig_run h
  have hg := hi.ok a _ b hl
  change g = _ at hg
  rw [hg] at hid
  obtain ⟨l1, hl1, hid1⟩ := List.mem_flatten.mp hid
  clear hid
  obtain ⟨⟨src, g'⟩, hm, rfl⟩ := List.mem_map.mp hl1
  have hid : id ∈ g'.ids := hid1
  clear hid1
  obtain ⟨c, ev, d, rfl, -⟩ := got_mem a hm
  obtain ⟨f1, f2⟩ : MigrOk db c (.fetched i src ev g') := hi.ok c _ (d ++ .replaced i g news :: b) (by rw [hl]; simp)
  rcases dbAfter_origin db c f1 with ⟨h1, -⟩ | ⟨c1, o, c2, rfl, h2, h3⟩
  · have := hdb g' (List.mem_of_getElem? h1)
    rw [this] at hid; cases hid
  · refine ⟨src, g', ev, c1, o, c2, d, hid, by simp, h2, f2, ?_⟩
    rcases h3 with rfl | ⟨d', rfl, hd⟩ | ⟨rfl, -⟩
    · left
      refine ⟨rfl, ?_⟩
      have := hi.ok c1 (.put src g') (c2 ++ .fetched i src ev g' :: (d ++ .replaced i g news :: b)) (by rw [hl]; simp)
      exact this.1
    · exact Or.inr ⟨d', rfl, hd⟩
    · cases hid

/-- **C41.** An entry that was fetched with `evict` is not fetched again: until something new is placed in it, whoever
fetches it gets nothing. -/
theorem C41_evict_once (db : List (Grp X)) (n : Nat) {es : List (Migr.Ev X)} {s : Migr.State X} (h : Migr.run (Migr.init db n) es = some s)
    (a b c : List (Migr.Obs X)) (i j src : Nat) (g g' : Grp X) (ev : Bool)
    (hl : s.log = a ++ .fetched i src true g :: (b ++ .fetched j src ev g' :: c))
    (hb : (∀ g, .put src g ∉ b) ∧ ∀ d, .setDb d ∉ b) : g' = ⟨[], [], []⟩ := by
  have hi := mig_run h
  obtain ⟨f1, -⟩ : MigrOk db (a ++ .fetched i src true g :: b) (.fetched j src ev g') := hi.ok _ _ c (by rw [hl]; simp)
  rcases dbAfter_origin db _ f1 with ⟨-, h2⟩ | ⟨a1, o, a2, h1, h2, h3⟩
  · exact absurd ⟨rfl, rfl⟩ (h2 (.fetched i src true g) (by simp))
  · rcases h3 with rfl | ⟨d, rfl, hd⟩ | ⟨hg, -⟩
    · exfalso
      rcases List.append_eq_append_iff.mp h1 with ⟨x, h4, h5⟩ | ⟨x, h4, h5⟩
      · cases x with
        | nil => simp at h5
        | cons y x =>
          simp only [List.cons_append, List.cons.injEq] at h5
          exact hb.1 g' (by rw [h5.2]; simp)
      · cases x with
        | nil => simp at h5
        | cons y x =>
          simp only [List.cons_append, List.cons.injEq] at h5
          exact h2 (.fetched i src true g) (by rw [h5.2]; simp) ⟨rfl, rfl⟩
    · exfalso
      rcases List.append_eq_append_iff.mp h1 with ⟨x, h4, h5⟩ | ⟨x, h4, h5⟩
      · cases x with
        | nil => simp at h5
        | cons y x =>
          simp only [List.cons_append, List.cons.injEq] at h5
          exact hb.2 d (by rw [h5.2]; simp)
      · cases x with
        | nil => simp at h5
        | cons y x =>
          simp only [List.cons_append, List.cons.injEq] at h5
          exact h2 (.fetched i src true g) (by rw [h5.2]; simp) ⟨rfl, rfl⟩
    · exact hg

/-- **C41.** An entry that was fetched with `preserve` stays until it is overwritten or evicted. -/
theorem C41_preserve (db : List (Grp X)) (n : Nat) {es : List (Migr.Ev X)} {s : Migr.State X} (h : Migr.run (Migr.init db n) es = some s)
    (a b c : List (Migr.Obs X)) (i j src : Nat) (g g' : Grp X) (ev : Bool)
    (hl : s.log = a ++ .fetched i src false g :: (b ++ .fetched j src ev g' :: c))
    (hb : (∀ g, .put src g ∉ b) ∧ (∀ d, .setDb d ∉ b) ∧ ∀ i g, .fetched i src true g ∉ b) : g' = g := by
  have hi := mig_run h
  obtain ⟨f1, -⟩ : MigrOk db (a ++ .fetched i src false g :: b) (.fetched j src ev g') := hi.ok _ _ c (by rw [hl]; simp)
  obtain ⟨f2, -⟩ : MigrOk db a (.fetched i src false g) := hi.ok _ _ _ hl
  rw [dbAfter_append, dbAfter_untouched, f2] at f1
  · exact (Option.some.inj f1).symm
  · intro o ho
    rcases List.mem_cons.mp ho with rfl | ho'
    · rintro ⟨h, -⟩; cases h
    · clear ho
      intro ht
      cases o with
      | fetched i' s' ev' g'' => obtain ⟨rfl, rfl⟩ := ht; exact hb.2.2 _ _ ho'
      | put i' g'' => have : i' = src := ht; subst this; exact hb.1 _ ho'
      | setDb d => exact hb.2.1 d ho'
      | _ => exact ht

/-- **C41.** After an island placed a group in the database and until the entry is touched, whoever fetches it gets
exactly that group. -/
theorem C41_put_get (db : List (Grp X)) (n : Nat) {es : List (Migr.Ev X)} {s : Migr.State X} (h : Migr.run (Migr.init db n) es = some s)
    (a b c : List (Migr.Obs X)) (j src : Nat) (g g' : Grp X) (ev : Bool)
    (hl : s.log = a ++ .put src g :: (b ++ .fetched j src ev g' :: c)) (hb : ∀ o ∈ b, ¬ touches src o) : g' = g := by
  have hi := mig_run h
  obtain ⟨f1, -⟩ : MigrOk db (a ++ .put src g :: b) (.fetched j src ev g') := hi.ok _ _ c (by rw [hl]; simp)
  obtain ⟨-, f2⟩ : MigrOk db a (.put src g) := hi.ok _ _ _ hl
  have e : dbAfter db (a ++ .put src g :: b) = dbAfter (dbAfter db (a ++ [.put src g])) b := by rw [← dbAfter_append]; simp
  rw [e, dbAfter_untouched b _ hb, dbAfter_snoc] at f1
  simp only [dbStep, List.getElem?_set_self f2] at f1
  exact (Option.some.inj f1).symm

/-- **C41.** An index that is not in the database is refused, and only such an index. -/
theorem C41_refused (db : List (Grp X)) (n : Nat) {es : List (Migr.Ev X)} {s : Migr.State X} (h : Migr.run (Migr.init db n) es = some s)
    (a b : List (Migr.Obs X)) (i src : Nat) (hl : s.log = a ++ .refused i src :: b) : (dbAfter db a).length ≤ src :=
  (mig_run h).ok a _ b hl

/-- **C41.** Nobody waits forever for the mutex: its holder can move. -/
theorem C41_progress (db : List (Grp X)) (n : Nat) {es : List (Migr.Ev X)} {s : Migr.State X} (h : Migr.run (Migr.init db n) es = some s)
    (t : Nat) (ho : s.owner = some t) : (Migr.step s t .none).isSome := by
  obtain ⟨pc, h1, h2⟩ := (mig_run h).held t ho
  unfold Migr.step
  rw [h1]
  cases pc <;> simp [MemOk] at h2 ⊢
  all_goals (split <;> rfl)

/-- Island 1 evolves and places a migrant; island 0 takes it (evict), its policy accepts it; island 2 comes too late. -/
def migrDemo : List (Migr.Ev Nat) :=
  [.setHandling true, .start 1 1, .step 1 (.conns []), .step 1 .none, .step 1 (.group ⟨[7], [70], [700]⟩)] ++
  List.replicate 6 (.step 1 .none) ++
  [.start 0 1, .start 2 1, .step 0 (.conns [1]), .step 2 (.conns [1, 0]), .step 0 .none, .step 2 .none, .step 0 .none, .step 2 .none,
   .step 2 (.dice 0 true), .step 0 (.dice 0 true)] ++ List.replicate 9 (.step 0 .none) ++
  [.step 0 (.news [(5, 50, 500), (7, 70, 700)]), .step 0 .none, .step 0 .none] ++ List.replicate 9 (.step 2 .none)

example : (Migr.run (Migr.init (List.replicate 3 ⟨[], [], []⟩) 3) migrDemo).map (fun s => (s.mlog, s.db)) =
    some ([⟨7, 70, 700, 1, 0⟩], List.replicate 3 ⟨[], [], []⟩) := by decide +kernel

/-- The history of this run meets the hypotheses of the theorems above. -/
example : (Migr.run (Migr.init (List.replicate 3 ⟨[], [], []⟩) 3) migrDemo).map (fun s => s.log) =
    some [.start 1 1, .conns 1 [], .selected 1 ⟨[7], [70], [700]⟩, .put 1 ⟨[7], [70], [700]⟩, .start 0 1, .start 2 1, .conns 0 [1], .conns 2 [1, 0],
      .fetched 0 1 true ⟨[7], [70], [700]⟩, .replaced 0 ⟨[7], [70], [700]⟩ [(5, 50, 500), (7, 70, 700)], .inds 0 [(5, 50, 500), (7, 70, 700)],
      .logged 0 [⟨7, 70, 700, 1, 0⟩], .fetched 2 1 true ⟨[], [], []⟩] := by decide +kernel

/-- Fetching without `evict` (the database given by the user) leaves the entry there. -/
example : (Migr.run (Migr.init [⟨[], [], []⟩, ⟨[], [], []⟩] 2)
    ([.setDb [⟨[], [], []⟩, ⟨[4], [40], [400]⟩], .start 0 1, .step 0 (.conns [1]), .step 0 .none, .step 0 .none, .step 0 (.dice 0 true)] ++
     List.replicate 6 (.step 0 .none))).map (fun s => (s.db, s.log.drop 3)) =
    some ([⟨[], [], []⟩, ⟨[4], [40], [400]⟩], [.fetched 0 1 false ⟨[4], [40], [400]⟩]) := by decide +kernel

/-- An index that is not in the database. -/
example : (Migr.run (Migr.init [⟨[], [], []⟩] 1)
    ([.start 0 1, .step 0 (.conns [3]), .step 0 .none, .step 0 .none, .step 0 (.dice 0 true), .step 0 .none, .step 0 .none] : List (Migr.Ev Nat))).map (fun s => s.log.drop 2) =
    some [.refused 0 3, .ended 0 (some .outOfRange)] := by decide +kernel

/-- The migration log also lists a migrant that the policy did not accept, if the island has an individual with the same
ID already (here from an earlier migration: the entry is preserved, the policy keeps the individuals it has). -/
theorem C41_log_repeats : (Migr.run (Migr.init [⟨[], [], []⟩, ⟨[7], [70], [700]⟩] 2)
    ([.start 0 2, .step 0 (.conns [1]), .step 0 .none, .step 0 .none, .step 0 (.dice 0 true)] ++ List.replicate 6 (.step 0 .none) ++
     [.step 0 (.news [(7, 70, 700)]), .step 0 .none, .step 0 .none, .step 0 .none, .step 0 (.group ⟨[], [], []⟩)] ++ List.replicate 6 (.step 0 .none) ++
     [.step 0 (.conns [1]), .step 0 .none, .step 0 .none, .step 0 (.dice 0 true)] ++ List.replicate 6 (.step 0 .none) ++
     [.step 0 (.news [(7, 70, 700)]), .step 0 .none, .step 0 .none])).map (fun s => s.mlog) =
    some [⟨7, 70, 700, 1, 0⟩, ⟨7, 70, 700, 1, 0⟩] := by decide +kernel

end Verif.Props
