import Verif.Model.Archipelago
import Mathlib.Data.List.Forall2
import Mathlib.Data.List.Nodup

/-!
# C42: the bookkeeping of the archipelago; C79: its status and `wait_check`
-/

set_option autoImplicit false

namespace Verif.Props

open Verif Prob

variable {P G L T : Type}

/-! ## What the documentation says -/

/-- An archipelago as the user sees it: the islands in the order of insertion, the database of migrants, the migration
log, the topology (`none` after a move from it) and the options. -/
structure ArchiSpec (P G L T : Type) where
  vals : List P
  db : List G
  log : List L
  topo : Option T
  opts : Nat

/-- Changing the specification of archipelago `a`. -/
def specAt {β : Type} (f : Nat → β) (k : Nat) (v : β) : Nat → β := fun j => if j = k then v else f j

/-- The documented effect of an operation. -/
def specExec (env : Archi.Env G T) (aw : Nat → Option (ArchiSpec P G L T)) :
    Archi.Op P G L T → Outcome Unit × (Nat → Option (ArchiSpec P G L T))
  | .new a t => (.ok (), specAt aw a (some ⟨[], [], [], some t, 0⟩))
  | .push a _ v =>
    match aw a with
    | some ⟨vs, db, l, some t, o⟩ =>
      match env.push t with
      | .ok t' => (.ok (), specAt aw a (some ⟨vs ++ [v], db ++ [env.noMigrants], l, some t', o⟩))
      | .error e => (.throws e, specAt aw a (some ⟨vs ++ [v], db ++ [env.noMigrants], l, some t, o⟩))
    | _ => (.ub, aw)
  | .copy dst src _ =>
    match aw src with
    | some ⟨vs, db, l, some t, o⟩ => (.ok (), specAt aw dst (some ⟨vs, db, l, some t, o⟩))
    | _ => (.ub, aw)
  | .move dst src =>
    match aw src with
    | some S => (.ok (), specAt (specAt aw dst (some S)) src (some ⟨[], [], [], none, S.opts⟩))
    | none => (.ub, aw)
  | .copyAssign dst src _ _ =>
    match aw dst, aw src with
    | some _, some ⟨vs, db, l, t, o⟩ =>
      if dst = src then (.ok (), aw)
      else match t with
        | some t => (.ok (), specAt aw dst (some ⟨vs, db, l, some t, o⟩))
        | none => (.ub, aw)
    | _, _ => (.ub, aw)
  | .moveAssign dst src =>
    match aw dst, aw src with
    | some _, some S =>
      if dst = src then (.ok (), aw)
      else (.ok (), specAt (specAt aw dst (some S)) src (some ⟨[], [], [], none, S.opts⟩))
    | _, _ => (.ub, aw)
  | .setTopology a t =>
    match aw a with
    | some A => (.ok (), specAt aw a (some { A with topo := some t }))
    | none => (.ub, aw)
  | .setMigrantsDb a db =>
    match aw a with
    | some A => (.ok (), specAt aw a (some { A with db := db }))
    | none => (.ub, aw)
  | .load a ar _ =>
    match aw a with
    | some _ =>
      match ar.migrants, ar.log, ar.topo, ar.opts with
      | .ok m, .ok l, .ok t, .ok o => (.ok (), specAt aw a (some ⟨ar.islands, m, l, some t, o⟩))
      | .error e, _, _, _ | .ok _, .error e, _, _ | .ok _, .ok _, .error e, _ | .ok _, .ok _, .ok _, .error e =>
        (.throws e, specAt aw a (some ⟨[], [], [], some env.unconnected, 0⟩))
    | none => (.ub, aw)
  | .write a i v =>
    match aw a with
    | some A =>
      if i < A.vals.length then (.ok (), specAt aw a (some { A with vals := A.vals.set i v }))
      else (.throws .outOfRange, aw)
    | none => (.ub, aw)
  | .destroy a =>
    match aw a with
    | some _ => (.ok (), specAt aw a none)
    | none => (.ub, aw)

/-- The documented effect of a program. -/
def specRun (env : Archi.Env G T) (aw : Nat → Option (ArchiSpec P G L T)) :
    List (Archi.Op P G L T) → List (Outcome Unit) × (Nat → Option (ArchiSpec P G L T))
  | [] => ([], aw)
  | op :: ops =>
    let r := specExec env aw op
    let q := specRun env r.2 ops
    (r.1 :: q.1, q.2)

/-! ## Representation -/

def CellsOk (isl : Nat → Option (Archi.Cell P)) (a : Nat) (ps : List Nat) (vs : List P) : Prop :=
  List.Forall₂ (fun p v => isl p = some ⟨v, a⟩) ps vs

def IdxOk (m : List (Nat × Nat)) (ps : List Nat) : Prop := ∀ p i, Archi.find m p = some i ↔ ps[i]? = some p

def RepA (isl : Nat → Option (Archi.Cell P)) (a : Nat) : Option (Archi.Archi G L T) → Option (ArchiSpec P G L T) → Prop
  | none, none => True
  | some A, some B => (A.migrants = B.db ∧ A.log = B.log ∧ A.topo = B.topo ∧ A.opts = B.opts) ∧
      CellsOk isl a A.islands B.vals ∧ A.islands.Nodup ∧ IdxOk A.idx A.islands
  | _, _ => False

structure RepW (w : Archi.World P G L T) (aw : Nat → Option (ArchiSpec P G L T)) : Prop where
  rep : ∀ a, RepA w.isl a (w.archi a) (aw a)
  owned : ∀ (p : Nat) (c : Archi.Cell P), w.isl p = some c → ∃ A, w.archi c.archiPtr = some A ∧ p ∈ A.islands

theorem upd_eq {β : Type} (f : Nat → β) (k : Nat) (v : β) : Archi.upd f k v = specAt f k v := rfl

theorem specAt_self {β : Type} (f : Nat → β) (k : Nat) (v : β) : specAt f k v k = v := if_pos rfl

theorem specAt_ne {β : Type} (f : Nat → β) {k j : Nat} (v : β) (h : j ≠ k) : specAt f k v j = f j := if_neg h

theorem specAt_specAt {β : Type} (f : Nat → β) (k : Nat) (u v : β) : specAt (specAt f k u) k v = specAt f k v := by
  funext j; unfold specAt; split <;> rfl

theorem specAt_same {β : Type} (f : Nat → β) (k : Nat) {v : β} (h : f k = v) : specAt f k v = f := by
  funext j; unfold specAt; split
  · rename_i hj; rw [hj, h]
  · rfl

theorem rep_some {w : Archi.World P G L T} {aw : Nat → Option (ArchiSpec P G L T)} (h : RepW w aw) {a : Nat} {A : Archi.Archi G L T}
    (hA : w.archi a = some A) : ∃ B, aw a = some B ∧ (A.migrants = B.db ∧ A.log = B.log ∧ A.topo = B.topo ∧ A.opts = B.opts) ∧
      CellsOk w.isl a A.islands B.vals ∧ A.islands.Nodup ∧ IdxOk A.idx A.islands := by
  have := h.rep a
  rw [hA] at this
  cases hB : aw a with
  | none => rw [hB] at this; exact this.elim
  | some B => rw [hB] at this; exact ⟨B, rfl, this⟩

theorem rep_none {w : Archi.World P G L T} {aw : Nat → Option (ArchiSpec P G L T)} (h : RepW w aw) {a : Nat}
    (hA : w.archi a = none) : aw a = none := by
  have := h.rep a
  rw [hA] at this
  cases hB : aw a with
  | none => rfl
  | some B => rw [hB] at this; exact this.elim

theorem cells_mem {isl : Nat → Option (Archi.Cell P)} {a : Nat} {ps : List Nat} {vs : List P} (h : CellsOk isl a ps vs) {p : Nat}
    (hp : p ∈ ps) : ∃ v, isl p = some ⟨v, a⟩ := by
  induction h with
  | nil => cases hp
  | cons h _ ih =>
    rcases List.mem_cons.mp hp with rfl | hp
    · exact ⟨_, h⟩
    · exact ih hp

theorem cells_congr {isl isl' : Nat → Option (Archi.Cell P)} {a : Nat} {ps : List Nat} {vs : List P} (h : CellsOk isl a ps vs)
    (he : ∀ p ∈ ps, isl' p = isl p) : CellsOk isl' a ps vs := by
  induction h with
  | nil => exact .nil
  | cons h _ ih => exact .cons (by rw [he _ (List.mem_cons_self ..), h]) (ih (fun p hp => he p (List.mem_cons_of_mem _ hp)))

theorem repA_congr {isl isl' : Nat → Option (Archi.Cell P)} {a : Nat} {A : Option (Archi.Archi G L T)} {B : Option (ArchiSpec P G L T)}
    (h : RepA isl a A B) (he : ∀ p v, isl p = some ⟨v, a⟩ → isl' p = isl p) : RepA isl' a A B := by
  cases A with
  | none => cases B with
    | none => trivial
    | some B => exact h
  | some A => cases B with
    | none => exact h
    | some B =>
      refine ⟨h.1, cells_congr h.2.1 (fun p hp => ?_), h.2.2⟩
      obtain ⟨v, hv⟩ := cells_mem h.2.1 hp
      exact he p v hv

theorem find_append (m : List (Nat × Nat)) (p i q : Nat) : Archi.find (m ++ [(p, i)]) q =
    match Archi.find m q with
    | some j => some j
    | none => if p = q then some i else none := by
  unfold Archi.find
  rw [List.find?_append]
  cases h : m.find? (fun e => e.1 == q) with
  | some e => simp
  | none => by_cases hpq : p = q <;> simp [hpq]

theorem idx_snoc {m : List (Nat × Nat)} {ps : List Nat} {p : Nat} (h : IdxOk m ps) (hp : p ∉ ps) :
    IdxOk (Archi.emplace m p ps.length) (ps ++ [p]) := by
  have hn : Archi.find m p = none := by
    cases hf : Archi.find m p with
    | none => rfl
    | some i => exact absurd (List.mem_of_getElem? ((h p i).mp hf)) hp
  intro q i
  unfold Archi.emplace
  rw [hn]
  simp only
  rw [find_append]
  cases hf : Archi.find m q with
  | some j =>
    have hj := (h q j).mp hf
    have hlt := (List.getElem?_eq_some_iff.mp hj).1
    simp only [Option.some.injEq]
    constructor
    · rintro rfl; rw [List.getElem?_append_left hlt, hj]
    · intro hi
      by_cases hil : i < ps.length
      · rw [List.getElem?_append_left hil] at hi
        have := (h q i).mpr hi
        rw [hf] at this; exact Option.some.inj this
      · rw [List.getElem?_append_right (by omega)] at hi
        have hi0 : i - ps.length = 0 := by
          by_contra hne
          rw [List.getElem?_eq_none (by simp; omega)] at hi; cases hi
        rw [hi0] at hi
        simp at hi
        subst hi
        rw [hn] at hf; cases hf
  | none =>
    simp only
    constructor
    · intro hi
      split at hi
      · rename_i hpq; subst hpq; cases hi; simp
      · cases hi
    · intro hi
      by_cases hil : i < ps.length
      · rw [List.getElem?_append_left hil] at hi
        have := (h q i).mpr hi
        rw [hf] at this; cases this
      · rw [List.getElem?_append_right (by omega)] at hi
        have hi0 : i - ps.length = 0 := by
          by_contra hne
          rw [List.getElem?_eq_none (by simp; omega)] at hi; cases hi
        rw [hi0] at hi
        simp at hi
        subst hi
        rw [if_pos rfl]
        congr 1; omega

theorem idx_nil : IdxOk [] [] := by
  intro p i; simp [Archi.find]

/-! ## The operations -/

/-- One archipelago is changed, its islands stay. -/
theorem rep_change {w : Archi.World P G L T} {aw : Nat → Option (ArchiSpec P G L T)} (h : RepW w aw) {a : Nat} {A A' : Archi.Archi G L T}
    {B' : ArchiSpec P G L T} (hA : w.archi a = some A) (hi : A'.islands = A.islands) (hx : A'.idx = A.idx)
    (hB : ∀ B, aw a = some B → B'.vals = B.vals) (hf : A'.migrants = B'.db ∧ A'.log = B'.log ∧ A'.topo = B'.topo ∧ A'.opts = B'.opts) :
    RepW { w with archi := Archi.upd w.archi a (some A') } (specAt aw a (some B')) := by
  obtain ⟨B, hB1, -, h2, h3, h4⟩ := rep_some h hA
  constructor
  · intro c
    simp only [upd_eq]
    by_cases hc : c = a
    · subst hc
      rw [specAt_self, specAt_self]
      refine ⟨hf, ?_, ?_, ?_⟩
      · rw [hi, hB B hB1]; exact h2
      · rw [hi]; exact h3
      · rw [hi, hx]; exact h4
    · rw [specAt_ne _ _ hc, specAt_ne _ _ hc]; exact h.rep c
  · intro p c hp
    obtain ⟨X, hX, hm⟩ := h.owned p c hp
    simp only [upd_eq]
    by_cases hc : c.archiPtr = a
    · rw [hc, specAt_self]; rw [hc, hA] at hX; cases hX; exact ⟨A', rfl, by rw [hi]; exact hm⟩
    · rw [specAt_ne _ _ hc]; exact ⟨X, hX, hm⟩

/-- A new, empty archipelago. -/
theorem rep_new {w : Archi.World P G L T} {aw : Nat → Option (ArchiSpec P G L T)} (h : RepW w aw) {a : Nat} (hA : w.archi a = none) (t : T) :
    RepW { w with archi := Archi.upd w.archi a (some (Archi.fresh t)) } (specAt aw a (some ⟨[], [], [], some t, 0⟩)) := by
  constructor
  · intro c
    simp only [upd_eq]
    by_cases hc : c = a
    · subst hc
      rw [specAt_self, specAt_self]
      exact ⟨⟨rfl, rfl, rfl, rfl⟩, .nil, List.nodup_nil, idx_nil⟩
    · rw [specAt_ne _ _ hc, specAt_ne _ _ hc]; exact h.rep c
  · intro p c hp
    obtain ⟨X, hX, hm⟩ := h.owned p c hp
    simp only [upd_eq]
    by_cases hc : c.archiPtr = a
    · rw [hc, hA] at hX; cases hX
    · rw [specAt_ne _ _ hc]; exact ⟨X, hX, hm⟩

/-- An island is added; the rest of the members is as given. -/
theorem rep_push {w : Archi.World P G L T} {aw : Nat → Option (ArchiSpec P G L T)} (h : RepW w aw) {a p : Nat} {A A' : Archi.Archi G L T}
    {B B' : ArchiSpec P G L T} (v : P) (hA : w.archi a = some A) (hp : w.isl p = none) (hB : aw a = some B)
    (h1 : A'.islands = A.islands ++ [p]) (h2 : A'.idx = Archi.emplace A.idx p A.islands.length) (h3 : B'.vals = B.vals ++ [v])
    (hf : A'.migrants = B'.db ∧ A'.log = B'.log ∧ A'.topo = B'.topo ∧ A'.opts = B'.opts) :
    RepW ⟨Archi.upd w.isl p (some ⟨v, a⟩), Archi.upd w.archi a (some A')⟩ (specAt aw a (some B')) := by
  obtain ⟨B0, hB0, -, hc, hn, hi⟩ := rep_some h hA
  rw [hB] at hB0; cases hB0
  have hpn : p ∉ A.islands := by
    intro hm; obtain ⟨v, hv⟩ := cells_mem hc hm; rw [hp] at hv; cases hv
  constructor
  · intro c
    simp only [upd_eq]
    by_cases hca : c = a
    · subst hca
      rw [specAt_self, specAt_self]
      refine ⟨hf, ?_, ?_, ?_⟩
      · rw [h1, h3]
        refine List.rel_append (cells_congr hc (fun q hq => specAt_ne _ _ (by rintro rfl; exact hpn hq))) (.cons (specAt_self _ _ _) .nil)
      · rw [h1]; exact List.Nodup.append hn (List.nodup_singleton p) (by simpa using hpn)
      · rw [h1, h2]; exact idx_snoc hi hpn
    · rw [specAt_ne _ _ hca, specAt_ne _ _ hca]
      refine repA_congr (h.rep c) (fun q u hq => specAt_ne _ _ (fun he => ?_))
      rw [he, hp] at hq; cases hq
  · intro q c hq
    simp only [upd_eq] at hq ⊢
    by_cases hqp : q = p
    · subst hqp; rw [specAt_self] at hq; cases hq
      exact ⟨A', specAt_self _ _ _, by rw [h1]; simp⟩
    · rw [specAt_ne _ _ hqp] at hq
      obtain ⟨X, hX, hm⟩ := h.owned q c hq
      by_cases hca : c.archiPtr = a
      · rw [hca, hA] at hX; cases hX
        rw [hca, specAt_self]; exact ⟨A', rfl, by rw [h1]; exact List.mem_append_left _ hm⟩
      · rw [specAt_ne _ _ hca]; exact ⟨X, hX, hm⟩

/-- The loop of the copy constructor. -/
theorem rep_copyLoop (env : Archi.Env G T) (hu : env.push env.unconnected = .ok env.unconnected) {dst : Nat} :
    ∀ (qs : List Nat) (vs : List P) (ps : List Nat) {w : Archi.World P G L T} {aw : Nat → Option (ArchiSpec P G L T)}
      {r : Outcome Unit × Archi.World P G L T} (us : List P) (db : List G), RepW w aw →
      aw dst = some ⟨us, db, [], some env.unconnected, 0⟩ →
      List.Forall₂ (fun q v => ∃ a, w.isl q = some ⟨v, a⟩) qs vs → Archi.copyLoop env dst qs ps w = some r →
      ∃ db', r.1 = .ok () ∧ RepW r.2 (specAt aw dst (some ⟨us ++ vs, db', [], some env.unconnected, 0⟩)) := by
  intro qs
  induction qs with
  | nil =>
    intro vs ps w aw r us db h hd hq hr
    cases hq
    cases ps with
    | cons p ps => simp [Archi.copyLoop] at hr
    | nil =>
      simp only [Archi.copyLoop, Option.some.injEq] at hr
      subst hr
      refine ⟨db, rfl, ?_⟩
      rw [List.append_nil, specAt_same _ _ hd]; exact h
  | cons q qs ih =>
    intro vs ps w aw r us db h hd hq hr
    cases hq with
    | @cons _ v _ vs hv hvs =>
    cases ps with
    | nil => simp [Archi.copyLoop] at hr
    | cons p ps =>
      simp only [Archi.copyLoop] at hr
      cases hp : w.isl p with
      | some c => rw [hp] at hr; cases hr
      | none =>
        rw [hp] at hr
        obtain ⟨a, hv⟩ := hv
        rw [hv] at hr
        simp only at hr
        cases hA : w.archi dst with
        | none => rw [rep_none h hA] at hd; cases hd
        | some A =>
          obtain ⟨B, hB, ⟨f1, f2, f3, f4⟩, -⟩ := rep_some h hA
          rw [hd] at hB; cases hB
          simp only at f1 f2 f3 f4
          have hpush : Archi.pushBack env w dst p v = (.ok (), ⟨Archi.upd w.isl p (some ⟨v, dst⟩),
              Archi.upd w.archi dst (some { A with idx := Archi.emplace A.idx p A.islands.length, migrants := A.migrants ++ [env.noMigrants], islands := A.islands ++ [p], topo := some env.unconnected })⟩) := by
            unfold Archi.pushBack
            rw [hA]
            simp only [f3, hu]
          rw [hpush] at hr
          simp only at hr
          have h' := rep_push h (p := p) (B' := ⟨us ++ [v], db ++ [env.noMigrants], [], some env.unconnected, 0⟩) v hA hp hd
            (A' := { A with idx := Archi.emplace A.idx p A.islands.length, migrants := A.migrants ++ [env.noMigrants], islands := A.islands ++ [p], topo := some env.unconnected })
            rfl rfl rfl ⟨by simp only [f1], f2, rfl, f4⟩
          obtain ⟨db', hok, hrep⟩ := ih vs ps (us ++ [v]) (db ++ [env.noMigrants]) h' (specAt_self _ _ _)
            (hvs.imp (by
              rintro q' v' ⟨a', hq'⟩
              refine ⟨a', ?_⟩
              simp only [upd_eq]
              rw [specAt_ne _ _ (fun he => ?_)]
              · exact hq'
              · rw [he, hp] at hq'; cases hq')) hr
          refine ⟨db', hok, ?_⟩
          rw [specAt_specAt] at hrep
          simpa using hrep

/-- Copy construction. -/
theorem rep_copy (env : Archi.Env G T) (hu : env.push env.unconnected = .ok env.unconnected) {w : Archi.World P G L T}
    {aw : Nat → Option (ArchiSpec P G L T)} (h : RepW w aw) {dst src : Nat} (hd : w.archi dst = none) {ps : List Nat}
    {r : Outcome Unit × Archi.World P G L T} (hr : Archi.copyCtor env w dst src ps = some r) :
    r.1 = (specExec env aw (.copy dst src ps)).1 ∧ RepW r.2 (specExec env aw (.copy dst src ps)).2 := by
  unfold Archi.copyCtor at hr
  cases hS : w.archi src with
  | none =>
    rw [hS] at hr; cases hr
    simp only [specExec, rep_none h hS]; exact ⟨trivial, h⟩
  | some S =>
    obtain ⟨B, hB, ⟨f1, f2, f3, f4⟩, hc, -⟩ := rep_some h hS
    rw [hS] at hr
    obtain ⟨vs, db, l, t, o⟩ := B
    simp only at f1 f2 f3 f4 hc hr
    cases t with
    | none =>
      rw [f3] at hr; cases hr
      simp only [specExec, hB]; exact ⟨trivial, h⟩
    | some t =>
      rw [f3] at hr
      simp only at hr
      have h0 := rep_new h hd env.unconnected
      cases hl : Archi.copyLoop env dst S.islands ps { w with archi := Archi.upd w.archi dst (some (Archi.fresh env.unconnected)) } with
      | none => rw [hl] at hr; cases hr
      | some r0 =>
        obtain ⟨db', hok, hrep⟩ := rep_copyLoop env hu S.islands vs ps [] [] h0 (specAt_self _ _ _)
          (hc.imp (fun q v hq => ⟨src, hq⟩)) hl
        obtain ⟨o0, w0⟩ := r0
        simp only at hok hrep
        subst hok
        rw [hl] at hr
        simp only at hr
        rw [specAt_specAt] at hrep
        cases hD : w0.archi dst with
        | none => have := rep_none hrep hD; rw [specAt_self] at this; cases this
        | some D =>
          rw [hD] at hr
          simp only [Option.some.injEq] at hr
          subst hr
          have := rep_change hrep (B' := ⟨vs, db, l, some t, o⟩) (A' := { D with migrants := S.migrants, log := S.log, topo := some t, opts := S.opts })
            hD rfl rfl (by intro B hB'; rw [specAt_self] at hB'; cases hB'; simp) ⟨f1, f2, rfl, f4⟩
          rw [specAt_specAt] at this
          simp only [specExec, hB]
          exact ⟨trivial, this⟩

theorem redirect_free_map (isl : Nat → Option (Archi.Cell P)) (old ps : List Nat) (a p : Nat) :
    Archi.redirect (Archi.free isl old) a ps p =
      if p ∈ old then none else if p ∈ ps then (isl p).map (fun c => { c with archiPtr := a }) else isl p := by
  unfold Archi.redirect Archi.free
  by_cases h1 : p ∈ old <;> by_cases h2 : p ∈ ps <;> simp [h1, h2]

/-- Moving. -/
theorem rep_move {w : Archi.World P G L T} {aw : Nat → Option (ArchiSpec P G L T)} (h : RepW w aw) {dst src : Nat} (hne : dst ≠ src)
    {S : Archi.Archi G L T} (hS : w.archi src = some S) {old : List Nat}
    (hold : (w.archi dst = none ∧ old = []) ∨ ∃ D, w.archi dst = some D ∧ old = D.islands) :
    ∃ B, aw src = some B ∧ RepW (Archi.moveFields w dst src S old)
      (specAt (specAt aw dst (some B)) src (some ⟨[], [], [], none, B.opts⟩)) := by
  obtain ⟨B, hB, ⟨f1, f2, f3, f4⟩, hc, hn, hi⟩ := rep_some h hS
  refine ⟨B, hB, ?_⟩
  have hbelong : ∀ p ∈ old, ∃ v, w.isl p = some ⟨v, dst⟩ := by
    rcases hold with ⟨-, rfl⟩ | ⟨D, hD, rfl⟩
    · intro p hp; cases hp
    · obtain ⟨BD, -, -, hcD, -⟩ := rep_some h hD
      intro p hp; exact cells_mem hcD hp
  have hown : ∀ p v, w.isl p = some ⟨v, dst⟩ → p ∈ old := by
    intro p v hp
    obtain ⟨X, hX, hm⟩ := h.owned p _ hp
    rcases hold with ⟨h1, -⟩ | ⟨D, hD, rfl⟩
    · rw [h1] at hX; cases hX
    · simp only at hX; rw [hD] at hX; cases hX; exact hm
  constructor
  · intro c
    unfold Archi.moveFields
    simp only [upd_eq]
    by_cases hcs : c = src
    · subst hcs
      rw [specAt_self, specAt_self]
      exact ⟨⟨rfl, rfl, rfl, f4⟩, .nil, List.nodup_nil, idx_nil⟩
    · rw [specAt_ne _ _ hcs, specAt_ne _ _ hcs]
      by_cases hcd : c = dst
      · subst hcd
        rw [specAt_self, specAt_self]
        refine ⟨⟨f1, f2, f3, f4⟩, ?_, hn, hi⟩
        have hall : ∀ p ∈ S.islands, p ∉ old := by
          intro p hp ho
          obtain ⟨v, hv⟩ := cells_mem hc hp
          obtain ⟨u, hu⟩ := hbelong p ho
          rw [hv] at hu; cases hu; exact hne rfl
        have key : ∀ (ps : List Nat) (vs : List P), List.Forall₂ (fun p v => w.isl p = some ⟨v, src⟩) ps vs →
            (∀ p ∈ ps, p ∈ S.islands) → CellsOk (Archi.redirect (Archi.free w.isl old) c S.islands) c ps vs := by
          intro ps vs hf
          induction hf with
          | nil => intro _; exact .nil
          | @cons p v ps vs h1 _ ih =>
            intro hm
            refine .cons ?_ (ih (fun q hq => hm q (List.mem_cons_of_mem _ hq)))
            have hp := hm p (List.mem_cons_self ..)
            rw [redirect_free_map, if_neg (hall p hp), if_pos hp, h1]; rfl
        exact key _ _ hc (fun p hp => hp)
      · rw [specAt_ne _ _ hcd, specAt_ne _ _ hcd]
        refine repA_congr (h.rep c) (fun p v hp => ?_)
        rw [redirect_free_map, if_neg, if_neg]
        · intro hm
          obtain ⟨u, hu⟩ := cells_mem hc hm
          rw [hp] at hu; cases hu; exact hcs rfl
        · intro hm
          obtain ⟨u, hu⟩ := hbelong p hm
          rw [hp] at hu; cases hu; exact hcd rfl
  · intro p c hp
    unfold Archi.moveFields at hp ⊢
    simp only [upd_eq] at hp ⊢
    rw [redirect_free_map] at hp
    split at hp
    · cases hp
    · rename_i hno
      split at hp
      · rename_i hm
        obtain ⟨u, hu⟩ := cells_mem hc hm
        rw [hu] at hp
        cases hp
        exact ⟨S, by rw [specAt_ne _ _ hne, specAt_self], hm⟩
      · rename_i hnm
        obtain ⟨X, hX, hm⟩ := h.owned p c hp
        have hcs : c.archiPtr ≠ src := by
          intro he; rw [he, hS] at hX; cases hX; exact hnm hm
        have hcd : c.archiPtr ≠ dst := by
          intro he
          exact hno (hown p c.val (by rw [hp, ← he]))
        exact ⟨X, by rw [specAt_ne _ _ hcs, specAt_ne _ _ hcd]; exact hX, hm⟩

/-- Destruction. -/
theorem rep_destroy {w : Archi.World P G L T} {aw : Nat → Option (ArchiSpec P G L T)} (h : RepW w aw) {a : Nat} {A : Archi.Archi G L T}
    (hA : w.archi a = some A) : RepW ⟨Archi.free w.isl A.islands, Archi.upd w.archi a none⟩ (specAt aw a none) := by
  obtain ⟨B, hB, -, hc, -⟩ := rep_some h hA
  constructor
  · intro c
    simp only [upd_eq]
    by_cases hca : c = a
    · subst hca; rw [specAt_self, specAt_self]; trivial
    · rw [specAt_ne _ _ hca, specAt_ne _ _ hca]
      refine repA_congr (h.rep c) (fun p v hp => ?_)
      unfold Archi.free
      rw [if_neg]
      intro hm
      obtain ⟨u, hu⟩ := cells_mem hc hm
      rw [hp] at hu; cases hu; exact hca rfl
  · intro p c hp
    unfold Archi.free at hp
    simp only [upd_eq] at hp ⊢
    split at hp
    · cases hp
    · rename_i hnm
      obtain ⟨X, hX, hm⟩ := h.owned p c hp
      by_cases hca : c.archiPtr = a
      · rw [hca, hA] at hX; cases hX; exact absurd hm hnm
      · exact ⟨X, by rw [specAt_ne _ _ hca]; exact hX, hm⟩

/-- The islands read from an archive. -/
theorem load_spec (a : Nat) : ∀ (vs : List P) (ps : List Nat) (isl isl' : Nat → Option (Archi.Cell P)), Archi.loadIslands a vs ps isl = some isl' →
    CellsOk isl' a ps vs ∧ ps.Nodup ∧ (∀ p ∈ ps, isl p = none) ∧ ∀ p, p ∉ ps → isl' p = isl p := by
  intro vs
  induction vs with
  | nil =>
    intro ps isl isl' h
    cases ps with
    | cons p ps => simp [Archi.loadIslands] at h
    | nil => simp only [Archi.loadIslands, Option.some.injEq] at h; subst h; exact ⟨.nil, List.nodup_nil, by simp, fun p _ => rfl⟩
  | cons v vs ih =>
    intro ps isl isl' h
    cases ps with
    | nil => simp [Archi.loadIslands] at h
    | cons p ps =>
      simp only [Archi.loadIslands] at h
      cases hp : isl p with
      | some c => rw [hp] at h; cases h
      | none =>
        rw [hp] at h
        obtain ⟨h1, h2, h3, h4⟩ := ih ps _ isl' h
        have hpn : p ∉ ps := by
          intro hm; have := h3 p hm; rw [upd_eq, specAt_self] at this; cases this
        refine ⟨.cons ?_ h1, List.nodup_cons.mpr ⟨hpn, h2⟩, ?_, ?_⟩
        · rw [h4 p hpn, upd_eq, specAt_self]
        · intro q hq
          rcases List.mem_cons.mp hq with rfl | hq'
          · exact hp
          · have := h3 q hq'
            have hne : q ≠ p := by rintro rfl; exact hpn hq'
            rw [upd_eq, specAt_ne _ _ hne] at this; exact this
        · intro q hq
          rw [h4 q (fun hm => hq (List.mem_cons_of_mem _ hm)), upd_eq, specAt_ne _ _ (by rintro rfl; exact hq (List.mem_cons_self ..))]

theorem remap_ok (ps : List Nat) (hn : ps.Nodup) : IdxOk (Archi.remap ps) ps := by
  have key : ∀ (qs : List Nat) (m : List (Nat × Nat)) (done : List Nat), (done ++ qs).Nodup → IdxOk m done →
      IdxOk ((qs.zipIdx done.length).foldl (fun m e => Archi.emplace m e.1 e.2) m) (done ++ qs) := by
    intro qs
    induction qs with
    | nil => intro m done _ h; simpa using h
    | cons q qs ih =>
      intro m done hnd h
      rw [List.zipIdx_cons, List.foldl_cons]
      have hq : q ∉ done := by
        intro hm
        rw [List.nodup_append] at hnd
        exact hnd.2.2 q hm q (List.mem_cons_self ..) rfl
      have := ih (Archi.emplace m q done.length) (done ++ [q]) (by simpa using hnd) (idx_snoc h hq)
      simpa using this
  have := key ps [] [] (by simpa using hn) idx_nil
  simpa [Archi.remap] using this

/-- All islands of an archipelago are replaced. -/
theorem rep_replace {w : Archi.World P G L T} {aw : Nat → Option (ArchiSpec P G L T)} (h : RepW w aw) {a : Nat} {A A' : Archi.Archi G L T}
    {B' : ArchiSpec P G L T} (hA : w.archi a = some A) (isl' : Nat → Option (Archi.Cell P))
    (h1 : CellsOk isl' a A'.islands B'.vals) (h2 : A'.islands.Nodup) (h3 : IdxOk A'.idx A'.islands)
    (h4 : ∀ p ∈ A'.islands, Archi.free w.isl A.islands p = none) (h5 : ∀ p, p ∉ A'.islands → isl' p = Archi.free w.isl A.islands p)
    (hf : A'.migrants = B'.db ∧ A'.log = B'.log ∧ A'.topo = B'.topo ∧ A'.opts = B'.opts) :
    RepW ⟨isl', Archi.upd w.archi a (some A')⟩ (specAt aw a (some B')) := by
  obtain ⟨B, hB, -, hc, -⟩ := rep_some h hA
  constructor
  · intro c
    simp only [upd_eq]
    by_cases hca : c = a
    · subst hca; rw [specAt_self, specAt_self]; exact ⟨hf, h1, h2, h3⟩
    · rw [specAt_ne _ _ hca, specAt_ne _ _ hca]
      refine repA_congr (h.rep c) (fun p v hp => ?_)
      have hno : p ∉ A.islands := by
        intro hm; obtain ⟨u, hu⟩ := cells_mem hc hm; rw [hp] at hu; cases hu; exact hca rfl
      have hfr : Archi.free w.isl A.islands p = w.isl p := if_neg hno
      have hno' : p ∉ A'.islands := by
        intro hm; have := h4 p hm; rw [hfr, hp] at this; cases this
      rw [h5 p hno', hfr]
  · intro p c hp
    simp only [upd_eq] at hp ⊢
    by_cases hm : p ∈ A'.islands
    · obtain ⟨u, hu⟩ := cells_mem h1 hm
      rw [hp] at hu; cases hu
      exact ⟨A', specAt_self _ _ _, hm⟩
    · rw [h5 p hm] at hp
      unfold Archi.free at hp
      split at hp
      · cases hp
      · rename_i hnm
        obtain ⟨X, hX, hmX⟩ := h.owned p c hp
        by_cases hca : c.archiPtr = a
        · rw [hca, hA] at hX; cases hX; exact absurd hmX hnm
        · exact ⟨X, by rw [specAt_ne _ _ hca]; exact hX, hmX⟩

theorem at_spec (A : Archi.Archi G L T) (i : Nat) :
    Archi.at_ A i = match A.islands[i]? with | some p => .ok p | none => .throws .outOfRange := by
  unfold Archi.at_
  by_cases h : i < A.islands.length
  · rw [if_neg (by omega), Outcome.get_of_lt h, List.getElem?_eq_getElem h]
  · rw [if_pos (by omega), List.getElem?_eq_none (by omega)]

/-- Every operation has the documented effect. -/
theorem rep_exec (env : Archi.Env G T) (hu : env.push env.unconnected = .ok env.unconnected) {w : Archi.World P G L T}
    {aw : Nat → Option (ArchiSpec P G L T)} (h : RepW w aw) (op : Archi.Op P G L T) {r : Outcome Unit × Archi.World P G L T}
    (hr : Archi.exec env w op = some r) : r.1 = (specExec env aw op).1 ∧ RepW r.2 (specExec env aw op).2 := by
  cases op with
  | new a t =>
    simp only [Archi.exec] at hr
    cases hA : w.archi a with
    | some A => rw [hA] at hr; cases hr
    | none => rw [hA] at hr; cases hr; exact ⟨rfl, rep_new h hA t⟩
  | push a p v =>
    simp only [Archi.exec] at hr
    cases hp : w.isl p with
    | some c => rw [hp] at hr; cases hr
    | none =>
      rw [hp] at hr; cases hr
      unfold Archi.pushBack
      cases hA : w.archi a with
      | none => simp only [specExec, rep_none h hA]; exact ⟨trivial, h⟩
      | some A =>
        obtain ⟨B, hB, ⟨f1, f2, f3, f4⟩, -⟩ := rep_some h hA
        obtain ⟨vs, db, l, t, o⟩ := B
        simp only at f1 f2 f3 f4
        cases t with
        | none => simp only [specExec, hB, f3]; exact ⟨trivial, h⟩
        | some t =>
          simp only [specExec, hB, f3]
          cases ht : env.push t with
          | ok t' => exact ⟨rfl, rep_push h v hA hp hB rfl rfl rfl ⟨by simp only [f1], f2, rfl, f4⟩⟩
          | error e => exact ⟨rfl, rep_push h v hA hp hB rfl rfl rfl ⟨by simp only [f1], f2, rfl, f4⟩⟩
  | copy dst src ps =>
    simp only [Archi.exec] at hr
    cases hd : w.archi dst with
    | some A => rw [hd] at hr; cases hr
    | none => rw [hd] at hr; exact rep_copy env hu h hd hr
  | move dst src =>
    simp only [Archi.exec] at hr
    cases hd : w.archi dst with
    | some A => rw [hd] at hr; cases hr
    | none =>
      rw [hd] at hr; cases hr
      unfold Archi.moveCtor
      cases hS : w.archi src with
      | none => simp only [specExec, rep_none h hS]; exact ⟨trivial, h⟩
      | some S =>
        have hne : dst ≠ src := by rintro rfl; rw [hd] at hS; cases hS
        obtain ⟨B, hB, hrep⟩ := rep_move h hne hS (Or.inl ⟨hd, rfl⟩)
        simp only [specExec, hB]
        exact ⟨trivial, hrep⟩
  | copyAssign dst src tmp ps =>
    simp only [Archi.exec] at hr
    cases ht : w.archi tmp with
    | some A => rw [ht] at hr; cases hr
    | none =>
      rw [ht] at hr
      simp only at hr
      unfold Archi.copyAssign at hr
      cases hD : w.archi dst with
      | none => rw [hD] at hr; cases hr; simp only [specExec, rep_none h hD]; exact ⟨trivial, h⟩
      | some D =>
        obtain ⟨BD, hBD, -⟩ := rep_some h hD
        cases hS : w.archi src with
        | none => rw [hD, hS] at hr; cases hr; simp only [specExec, hBD, rep_none h hS]; exact ⟨trivial, h⟩
        | some S =>
          obtain ⟨BS, hBS, -⟩ := rep_some h hS
          rw [hD, hS] at hr
          simp only at hr
          obtain ⟨vs, db, l, t, o⟩ := BS
          simp only [specExec, hBD, hBS]
          by_cases hds : dst = src
          · rw [if_pos hds] at hr ⊢; cases hr; exact ⟨rfl, h⟩
          · rw [if_neg hds] at hr ⊢
            cases hcp : Archi.copyCtor env w tmp src ps with
            | none => rw [hcp] at hr; cases hr
            | some r0 =>
              obtain ⟨e1, e2⟩ := rep_copy env hu h ht hcp
              obtain ⟨o0, w0⟩ := r0
              rw [hcp] at hr
              simp only [specExec, hBS] at e1 e2
              cases t with
              | none =>
                simp only at e1 e2; subst e1
                simp only at hr; cases hr
                exact ⟨rfl, e2⟩
              | some t =>
                simp only at e1 e2; subst e1
                simp only at hr
                have hdt : dst ≠ tmp := by rintro rfl; rw [hD] at ht; cases ht
                cases hT : w0.archi tmp with
                | none => have := rep_none e2 hT; rw [specAt_self] at this; cases this
                | some T0 =>
                  cases hD0 : w0.archi dst with
                  | none => have := rep_none e2 hD0; rw [specAt_ne _ _ hdt, hBD] at this; cases this
                  | some D0 =>
                    obtain ⟨B0, hB0, hrep⟩ := rep_move e2 hdt hT (Or.inr ⟨D0, hD0, rfl⟩)
                    rw [specAt_self] at hB0; cases hB0
                    have hma : Archi.moveAssign w0 dst tmp = (.ok (), Archi.moveFields w0 dst tmp T0 D0.islands) := by
                      unfold Archi.moveAssign; rw [hD0, hT]; simp only; rw [if_neg hdt]
                    rw [hma] at hr
                    simp only [Option.some.injEq] at hr
                    cases hfin : (Archi.moveFields w0 dst tmp T0 D0.islands).archi tmp with
                    | none => have := rep_none hrep hfin; rw [specAt_self] at this; cases this
                    | some F =>
                      unfold Archi.destroy at hr
                      rw [hfin] at hr
                      simp only at hr
                      subst hr
                      refine ⟨rfl, ?_⟩
                      have := rep_destroy hrep hfin
                      rw [specAt_specAt] at this
                      refine (congrArg (RepW _) ?_).mp this
                      funext j
                      simp only
                      unfold specAt
                      by_cases hj : j = tmp
                      · subst hj; rw [if_pos rfl, if_neg (Ne.symm hdt), rep_none h ht]
                      · rw [if_neg hj, if_neg hj]
  | moveAssign dst src =>
    simp only [Archi.exec, Option.some.injEq] at hr
    subst hr
    unfold Archi.moveAssign
    cases hD : w.archi dst with
    | none => simp only [specExec, rep_none h hD]; exact ⟨trivial, h⟩
    | some D =>
      obtain ⟨BD, hBD, -⟩ := rep_some h hD
      cases hS : w.archi src with
      | none => simp only [specExec, hBD, rep_none h hS]; exact ⟨trivial, h⟩
      | some S =>
        obtain ⟨BS, hBS, -⟩ := rep_some h hS
        simp only [specExec, hBD, hBS]
        by_cases hds : dst = src
        · rw [if_pos hds, if_pos hds]; exact ⟨rfl, h⟩
        · rw [if_neg hds, if_neg hds]
          obtain ⟨B, hB, hrep⟩ := rep_move h hds hS (Or.inr ⟨D, hD, rfl⟩)
          rw [hBS] at hB; cases hB
          exact ⟨rfl, hrep⟩
  | setTopology a t =>
    simp only [Archi.exec, Option.some.injEq] at hr
    subst hr
    unfold Archi.change
    cases hA : w.archi a with
    | none => simp only [specExec, rep_none h hA]; exact ⟨trivial, h⟩
    | some A =>
      obtain ⟨B, hB, ⟨f1, f2, f3, f4⟩, -⟩ := rep_some h hA
      simp only [specExec, hB]
      exact ⟨trivial, rep_change h hA rfl rfl (by intro B' hB'; rw [hB] at hB'; cases hB'; rfl) ⟨f1, f2, rfl, f4⟩⟩
  | setMigrantsDb a db =>
    simp only [Archi.exec, Option.some.injEq] at hr
    subst hr
    unfold Archi.change
    cases hA : w.archi a with
    | none => simp only [specExec, rep_none h hA]; exact ⟨trivial, h⟩
    | some A =>
      obtain ⟨B, hB, ⟨f1, f2, f3, f4⟩, -⟩ := rep_some h hA
      simp only [specExec, hB]
      exact ⟨trivial, rep_change h hA rfl rfl (by intro B' hB'; rw [hB] at hB'; cases hB'; rfl) ⟨rfl, f2, f3, f4⟩⟩
  | load a ar ps =>
    simp only [Archi.exec] at hr
    unfold Archi.load at hr
    cases hA : w.archi a with
    | none => rw [hA] at hr; cases hr; simp only [specExec, rep_none h hA]; exact ⟨trivial, h⟩
    | some A =>
      obtain ⟨B, hB, -⟩ := rep_some h hA
      rw [hA] at hr
      simp only at hr
      cases hl : Archi.loadIslands a ar.islands ps (Archi.free w.isl A.islands) with
      | none => rw [hl] at hr; cases hr
      | some isl =>
        rw [hl] at hr
        simp only at hr
        obtain ⟨l1, l2, l3, l4⟩ := load_spec a _ _ _ _ hl
        have hgood : ∀ m l t o, RepW ⟨isl, Archi.upd w.archi a (some ⟨ps, Archi.remap ps, m, l, some t, o⟩)⟩
            (specAt aw a (some ⟨ar.islands, m, l, some t, o⟩)) := fun m l t o =>
          rep_replace h hA isl l1 l2 (remap_ok ps l2) l3 l4 ⟨rfl, rfl, rfl, rfl⟩
        have hbad : RepW ⟨Archi.free isl ps, Archi.upd w.archi a (some (Archi.fresh env.unconnected))⟩
            (specAt aw a (some ⟨[], [], [], some env.unconnected, 0⟩)) :=
          rep_replace h hA _ .nil List.nodup_nil idx_nil (by intro p hp; cases hp) (by
            intro p _
            unfold Archi.free
            by_cases hp : p ∈ ps
            · rw [if_pos hp]; exact (l3 p hp).symm
            · rw [if_neg hp, l4 p hp]; rfl) ⟨rfl, rfl, rfl, rfl⟩
        unfold Archi.loadRest at hr
        simp only [specExec, hB]
        cases hm : ar.migrants with
        | error e => rw [hm] at hr; cases hr; exact ⟨rfl, hbad⟩
        | ok m =>
          cases hlog : ar.log with
          | error e => rw [hm, hlog] at hr; cases hr; exact ⟨rfl, hbad⟩
          | ok l =>
            cases ht : ar.topo with
            | error e => rw [hm, hlog, ht] at hr; cases hr; exact ⟨rfl, hbad⟩
            | ok t =>
              cases ho : ar.opts with
              | error e => rw [hm, hlog, ht, ho] at hr; cases hr; exact ⟨rfl, hbad⟩
              | ok o => rw [hm, hlog, ht, ho] at hr; cases hr; exact ⟨rfl, hgood m l t o⟩
  | write a i v =>
    simp only [Archi.exec, Option.some.injEq] at hr
    subst hr
    unfold Archi.write
    cases hA : w.archi a with
    | none => simp only [specExec, rep_none h hA]; exact ⟨trivial, h⟩
    | some A =>
      obtain ⟨B, hB, hf, hc, hn, hi⟩ := rep_some h hA
      simp only [specExec, hB, at_spec]
      have hlen := hc.length_eq
      by_cases hil : i < A.islands.length
      · rw [List.getElem?_eq_getElem hil, if_pos (by omega)]
        simp only
        obtain ⟨u, hu'⟩ := cells_mem hc (List.getElem_mem hil)
        rw [hu']
        refine ⟨rfl, ?_, ?_⟩
        · intro c
          simp only [upd_eq]
          by_cases hca : c = a
          · subst hca
            rw [specAt_self, hA]
            refine ⟨hf, ?_, hn, hi⟩
            apply List.forall₂_iff_get.mpr
            refine ⟨by simp [hlen], ?_⟩
            intro j h1 h2
            simp only [List.get_eq_getElem, List.getElem_set]
            by_cases hij : i = j
            · subst hij; rw [if_pos rfl, specAt_self]
            · rw [if_neg hij, specAt_ne]
              · have := (List.forall₂_iff_get.mp hc).2 j h1 (by omega)
                simpa using this
              · intro he; exact hij ((List.Nodup.getElem_inj_iff hn).mp he).symm
          · rw [specAt_ne _ _ hca]
            refine repA_congr (h.rep c) (fun p x hp => specAt_ne _ _ (fun he => ?_))
            rw [he, hu'] at hp; cases hp; exact hca rfl
        · intro p c hp
          simp only [upd_eq] at hp ⊢
          by_cases hpe : p = A.islands[i]
          · rw [hpe, specAt_self] at hp; cases hp
            exact ⟨A, hA, hpe ▸ List.getElem_mem hil⟩
          · rw [specAt_ne _ _ hpe] at hp; exact h.owned p c hp
      · rw [List.getElem?_eq_none (by omega), if_neg (by omega)]
        exact ⟨rfl, h⟩
  | destroy a =>
    simp only [Archi.exec, Option.some.injEq] at hr
    subst hr
    unfold Archi.destroy
    cases hA : w.archi a with
    | none => simp only [specExec, rep_none h hA]; exact ⟨trivial, h⟩
    | some A =>
      obtain ⟨B, hB, -⟩ := rep_some h hA
      simp only [specExec, hB]
      exact ⟨trivial, rep_destroy h hA⟩

theorem rep_run (env : Archi.Env G T) (hu : env.push env.unconnected = .ok env.unconnected) :
    ∀ (ops : List (Archi.Op P G L T)) {w w' : Archi.World P G L T} {aw : Nat → Option (ArchiSpec P G L T)} {os : List (Outcome Unit)},
    RepW w aw → Archi.run env w ops = some (os, w') → os = (specRun env aw ops).1 ∧ RepW w' (specRun env aw ops).2 := by
  intro ops
  induction ops with
  | nil => intro w w' aw os h hr; simp only [Archi.run, Option.some.injEq, Prod.mk.injEq] at hr; obtain ⟨rfl, rfl⟩ := hr; exact ⟨rfl, h⟩
  | cons op ops ih =>
    intro w w' aw os h hr
    simp only [Archi.run] at hr
    cases he : Archi.exec env w op with
    | none => rw [he] at hr; cases hr
    | some r =>
      obtain ⟨o, w1⟩ := r
      rw [he] at hr
      simp only at hr
      obtain ⟨h1, h2⟩ := rep_exec env hu h op he
      cases hn : Archi.run env w1 ops with
      | none => rw [hn] at hr; cases hr
      | some r2 =>
        obtain ⟨os2, w2⟩ := r2
        rw [hn] at hr
        simp only [Option.some.injEq, Prod.mk.injEq] at hr
        obtain ⟨rfl, rfl⟩ := hr
        obtain ⟨h3, h4⟩ := ih h2 hn
        exact ⟨by simp only [specRun]; rw [← h1, ← h3], h4⟩

theorem rep_nothing : RepW (Archi.nothing : Archi.World P G L T) (fun _ => none) :=
  ⟨fun _ => trivial, fun p c h => by cases h⟩

/-! ## Theorems -/

/-- **C42.** Whatever a program does, and whichever free addresses the allocator returns: every operation ends as
documented, and afterwards every archipelago is as documented: it has the documented members; its size is the number of
islands; `archi[i]` is the `i`-th island for exactly the `i` below the size and throws `std::out_of_range` otherwise; the
island's pointer refers to its archipelago and the index of the island is `i`. -/
theorem C42_refines (env : Archi.Env G T) (hu : env.push env.unconnected = .ok env.unconnected) (ops : List (Archi.Op P G L T))
    {os : List (Outcome Unit)} {w : Archi.World P G L T} (hr : Archi.run env Archi.nothing ops = some (os, w)) :
    os = (specRun env (fun _ => none) ops).1 ∧
    ∀ a, match w.archi a, (specRun env (fun _ => none) ops).2 a with
      | none, none => True
      | some A, some B =>
        A.migrants = B.db ∧ A.log = B.log ∧ A.topo = B.topo ∧ A.opts = B.opts ∧ A.islands.length = B.vals.length ∧
        (∀ i, B.vals.length ≤ i → Archi.at_ A i = .throws .outOfRange) ∧
        ∀ (i : Nat) (v : P), B.vals[i]? = some v →
          ∃ p, Archi.at_ A i = .ok p ∧ w.isl p = some ⟨v, a⟩ ∧ Archi.getIslandIdx A p = .ok i
      | _, _ => False := by
  obtain ⟨h1, h2⟩ := rep_run env hu ops rep_nothing hr
  refine ⟨h1, fun a => ?_⟩
  have hrep := h2.rep a
  cases hA : w.archi a with
  | none =>
    rw [hA] at hrep
    cases hB : (specRun env (fun _ => none) ops).2 a with
    | none => trivial
    | some B => rw [hB] at hrep; exact hrep
  | some A =>
    rw [hA] at hrep
    cases hB : (specRun env (fun _ => none) ops).2 a with
    | none => rw [hB] at hrep; exact hrep
    | some B =>
      rw [hB] at hrep
      obtain ⟨⟨f1, f2, f3, f4⟩, hc, hn, hi⟩ := hrep
      have hlen := hc.length_eq
      refine ⟨f1, f2, f3, f4, hlen, ?_, ?_⟩
      · intro i hle
        rw [at_spec, List.getElem?_eq_none (by omega)]
      · intro i v hv
        obtain ⟨hil, hv2⟩ := List.getElem?_eq_some_iff.mp hv
        have hil' : i < A.islands.length := by omega
        refine ⟨A.islands[i], by rw [at_spec, List.getElem?_eq_getElem hil'], ?_, ?_⟩
        · have := (List.forall₂_iff_get.mp hc).2 i hil' hil
          simp only [List.get_eq_getElem] at this
          rw [this, hv2]
        · unfold Archi.getIslandIdx
          rw [(hi _ i).mpr (List.getElem?_eq_getElem hil')]

/-- **C42.** The index of an island is only known to its archipelago: for any other address `get_island_idx` throws. -/
theorem C42_foreign (env : Archi.Env G T) (hu : env.push env.unconnected = .ok env.unconnected) (ops : List (Archi.Op P G L T))
    {os : List (Outcome Unit)} {w : Archi.World P G L T} (hr : Archi.run env Archi.nothing ops = some (os, w)) (a p : Nat)
    (A : Archi.Archi G L T) (hA : w.archi a = some A) (hp : ∀ v, w.isl p ≠ some ⟨v, a⟩) :
    Archi.getIslandIdx A p = .throws .invalidArgument := by
  obtain ⟨-, h2⟩ := rep_run env hu ops rep_nothing hr
  obtain ⟨B, -, -, hc, -, hi⟩ := rep_some h2 hA
  unfold Archi.getIslandIdx
  cases hf : Archi.find A.idx p with
  | none => rfl
  | some i =>
    obtain ⟨v, hv⟩ := cells_mem hc (List.mem_of_getElem? ((hi p i).mp hf))
    exact absurd hv (hp v)

/-- **C42.** No island is leaked, none is owned twice: every island that exists is in the archipelago it points to. -/
theorem C42_no_leak (env : Archi.Env G T) (hu : env.push env.unconnected = .ok env.unconnected) (ops : List (Archi.Op P G L T))
    {os : List (Outcome Unit)} {w : Archi.World P G L T} (hr : Archi.run env Archi.nothing ops = some (os, w)) (p : Nat) (c : Archi.Cell P)
    (hp : w.isl p = some c) (a : Nat) (A : Archi.Archi G L T) (hA : w.archi a = some A) :
    (∃ X, w.archi c.archiPtr = some X) ∧ (c.archiPtr = a ↔ p ∈ A.islands) ∧ A.islands.count p ≤ 1 := by
  obtain ⟨-, h2⟩ := rep_run env hu ops rep_nothing hr
  obtain ⟨X, hX, hm⟩ := h2.owned p c hp
  obtain ⟨B, -, -, hc, hn, hi⟩ := rep_some h2 hA
  refine ⟨⟨X, hX⟩, ⟨?_, ?_⟩, List.nodup_iff_count_le_one.mp hn p⟩
  · rintro rfl; rw [hA] at hX; cases hX; exact hm
  · intro hmA
    obtain ⟨v, hv⟩ := cells_mem hc hmA
    rw [hp] at hv; cases hv; rfl

/-- The operations that let the user set members freely: `set_topology`, `set_migrants_db`, loading from an archive, and
starting with a topology that has vertices. -/
def PlainOp (size : T → Nat) : Archi.Op P G L T → Prop
  | .new _ t => size t = 0
  | .setTopology _ _ | .setMigrantsDb _ _ | .load _ _ _ => False
  | _ => True

/-- The counts agree. -/
def CountsOk (env : Archi.Env G T) (size : T → Nat) (B : ArchiSpec P G L T) : Prop :=
  B.db.length = B.vals.length ∧ ∀ t, B.topo = some t → t = env.unconnected ∨ size t = B.vals.length

theorem counts_exec (env : Archi.Env G T) (hu : env.push env.unconnected = .ok env.unconnected) (size : T → Nat)
    (hsz : ∀ t, t ≠ env.unconnected → ∃ t', env.push t = .ok t' ∧ size t' = size t + 1)
    {aw : Nat → Option (ArchiSpec P G L T)} (h : ∀ a B, aw a = some B → CountsOk env size B) (op : Archi.Op P G L T) (hp : PlainOp size op) :
    ∀ a B, (specExec env aw op).2 a = some B → CountsOk env size B := by
  have hset : ∀ (aw : Nat → Option (ArchiSpec P G L T)) (k : Nat) (x : Option (ArchiSpec P G L T)), (∀ a B, aw a = some B → CountsOk env size B) →
      (∀ B, x = some B → CountsOk env size B) → ∀ a B, specAt aw k x a = some B → CountsOk env size B := by
    intro aw k x h1 h2 a B hB
    unfold specAt at hB
    split at hB
    · exact h2 B hB
    · exact h1 a B hB
  have hempty : ∀ o, CountsOk env size (⟨[], [], [], none, o⟩ : ArchiSpec P G L T) := fun o => ⟨rfl, fun t ht => by cases ht⟩
  cases op with
  | new a t =>
    refine hset _ _ _ h (fun B hB => ?_)
    cases hB
    exact ⟨rfl, fun t' ht => by cases ht; exact Or.inr hp⟩
  | push a p v =>
    simp only [specExec]
    cases hB : aw a with
    | none => exact h
    | some B =>
      obtain ⟨vs, db, l, t, o⟩ := B
      cases t with
      | none => exact h
      | some t =>
        obtain ⟨h1, h2⟩ := h a _ hB
        obtain ⟨t', ht, hs⟩ : ∃ t', env.push t = .ok t' ∧ (t' = env.unconnected ∨ size t' = vs.length + 1) := by
          by_cases htu : t = env.unconnected
          · exact ⟨_, by rw [htu]; exact hu, Or.inl rfl⟩
          · obtain ⟨t', ht, hs⟩ := hsz t htu
            have := (h2 t rfl).resolve_left htu
            simp only at this
            exact ⟨t', ht, Or.inr (by omega)⟩
        simp only [ht]
        refine hset _ _ _ h (fun B' hB' => ?_)
        cases hB'
        simp only at h1
        refine ⟨by simp [h1], fun t'' ht'' => ?_⟩
        cases ht''
        simpa using hs
  | copy dst src ps =>
    simp only [specExec]
    cases hB : aw src with
    | none => exact h
    | some B =>
      obtain ⟨vs, db, l, t, o⟩ := B
      cases t with
      | none => exact h
      | some t => exact hset _ _ _ h (fun B' hB' => by cases hB'; exact h src _ hB)
  | move dst src =>
    simp only [specExec]
    cases hB : aw src with
    | none => exact h
    | some B => exact hset _ _ _ (hset _ _ _ h (fun B' hB' => by cases hB'; exact h src _ hB)) (fun B' hB' => by cases hB'; exact hempty _)
  | copyAssign dst src tmp ps =>
    simp only [specExec]
    cases hD : aw dst with
    | none => exact h
    | some D =>
      cases hB : aw src with
      | none => exact h
      | some B =>
        obtain ⟨vs, db, l, t, o⟩ := B
        simp only
        split
        · exact h
        · cases t with
          | none => exact h
          | some t => exact hset _ _ _ h (fun B' hB' => by cases hB'; exact h src _ hB)
  | moveAssign dst src =>
    simp only [specExec]
    cases hD : aw dst with
    | none => exact h
    | some D =>
      cases hB : aw src with
      | none => exact h
      | some B =>
        simp only
        split
        · exact h
        · exact hset _ _ _ (hset _ _ _ h (fun B' hB' => by cases hB'; exact h src _ hB)) (fun B' hB' => by cases hB'; exact hempty _)
  | setTopology a t => exact hp.elim
  | setMigrantsDb a db => exact hp.elim
  | load a ar ps => exact hp.elim
  | write a i v =>
    simp only [specExec]
    cases hB : aw a with
    | none => exact h
    | some B =>
      simp only
      split
      · refine hset _ _ _ h (fun B' hB' => ?_)
        cases hB'
        have := h a B hB
        exact ⟨by simpa using this.1, fun t ht => by simpa using this.2 t ht⟩
      · exact h
  | destroy a =>
    simp only [specExec]
    cases hB : aw a with
    | none => exact h
    | some B => exact hset _ _ _ h (fun B' hB' => by cases hB')

/-- **C42.** Without `set_topology`, `set_migrants_db` and `load` by the user, every archipelago has as many entries in
the database of migrants as islands, and as many vertices in its topology. -/
theorem C42_counts (env : Archi.Env G T) (hu : env.push env.unconnected = .ok env.unconnected) (size : T → Nat)
    (hsz : ∀ t, t ≠ env.unconnected → ∃ t', env.push t = .ok t' ∧ size t' = size t + 1)
    (ops : List (Archi.Op P G L T)) (hplain : ∀ op ∈ ops, PlainOp size op)
    {os : List (Outcome Unit)} {w : Archi.World P G L T} (hr : Archi.run env Archi.nothing ops = some (os, w)) (a : Nat) (A : Archi.Archi G L T)
    (hA : w.archi a = some A) :
    A.migrants.length = A.islands.length ∧ ∀ t, A.topo = some t → t = env.unconnected ∨ size t = A.islands.length := by
  have key : ∀ (ops : List (Archi.Op P G L T)) (aw : Nat → Option (ArchiSpec P G L T)), (∀ op ∈ ops, PlainOp size op) →
      (∀ a B, aw a = some B → CountsOk env size B) → ∀ a B, (specRun env aw ops).2 a = some B → CountsOk env size B := by
    intro ops
    induction ops with
    | nil => intro aw _ h; exact h
    | cons op ops ih =>
      intro aw hp h
      exact ih _ (fun o ho => hp o (List.mem_cons_of_mem _ ho)) (counts_exec env hu size hsz h op (hp op (List.mem_cons_self ..)))
  obtain ⟨-, h2⟩ := rep_run env hu ops rep_nothing hr
  obtain ⟨B, hB, ⟨f1, f2, f3, f4⟩, hc, -⟩ := rep_some h2 hA
  obtain ⟨h3, h4⟩ := key ops _ hplain (fun a B h => by cases h) a B hB
  rw [f1, f3, hc.length_eq]
  exact ⟨h3, h4⟩

/-- Topologies that count their vertices; `none` is the unconnected one. -/
def countEnv : Archi.Env Nat (Option Nat) := ⟨0, fun t => .ok (t.map (· + 1)), none⟩

/-- Two archipelagos; the second is copied from the first, the first is assigned from the second after an address was
freed and used again. -/
def archiDemo : List (Archi.Op String Nat Nat (Option Nat)) :=
  [.new 0 (some 0), .push 0 10 "a", .push 0 11 "b", .copy 1 0 [12, 13], .push 1 14 "c", .new 2 (some 0), .push 2 15 "d",
   .moveAssign 2 0, .push 2 15 "e", .copyAssign 2 1 9 [20, 21, 22], .write 2 1 "z", .write 2 3 "no", .push 2 10 "f", .destroy 1]

/-- What can be seen of an archipelago. -/
def archiView (a : Nat) (r : Option (List (Outcome Unit) × Archi.World String Nat Nat (Option Nat))) : Option (List (Nat × Option String) × Nat) :=
  r.bind (fun r => (r.2.archi a).map (fun A => (A.islands.map (fun p => (p, (r.2.isl p).map (fun c => c.val))), A.migrants.length)))

example : archiView 2 (Archi.run countEnv Archi.nothing archiDemo) =
    some ([(20, some "a"), (21, some "z"), (22, some "c"), (10, some "f")], 4) := by decide +kernel

example : (∀ op ∈ archiDemo, PlainOp (fun t : Option Nat => t.getD 0) op) ∧
    (Archi.run countEnv Archi.nothing archiDemo).map (fun r => r.1.map (fun o => decide (o = .ok ()))) =
      some [true, true, true, true, true, true, true, true, true, true, true, false, true, true] := by
  refine ⟨?_, by decide +kernel⟩
  intro op hop
  simp only [archiDemo, List.mem_cons, List.not_mem_nil, or_false] at hop
  rcases hop with rfl | rfl | rfl | rfl | rfl | rfl | rfl | rfl | rfl | rfl | rfl | rfl | rfl | rfl <;> simp [PlainOp]

/-! ## Status -/

/-- **C79.** The status of an archipelago. -/
theorem C79_status (ss : List Archi.Status) :
    (Archi.status ss = .idle ↔ ∀ s ∈ ss, s = .idle) ∧
    (Archi.status ss = .busy ↔ .busy ∈ ss ∧ ∀ s ∈ ss, s = .idle ∨ s = .busy) ∧
    (Archi.status ss = .idleError ↔ .idleError ∈ ss ∧ ∀ s ∈ ss, s = .idle ∨ s = .idleError) ∧
    (Archi.status ss = .busyError ↔ (.busy ∈ ss ∨ .busyError ∈ ss) ∧ (.idleError ∈ ss ∨ .busyError ∈ ss)) := by
  have key : ∀ (ss : List Archi.Status) (n : Archi.Counts), ss.foldl Archi.countStep n =
      ⟨n.idle + ss.count .idle, n.busy + ss.count .busy, n.idleError + ss.count .idleError, n.busyError + ss.count .busyError⟩ := by
    intro ss
    induction ss with
    | nil => intro n; rfl
    | cons s ss ih =>
      intro n
      rw [List.foldl_cons, ih]
      cases s <;> simp [Archi.countStep] <;> omega
  have hlen : ss.count .idle + ss.count .busy + ss.count .idleError + ss.count .busyError = ss.length := by
    clear key
    induction ss with
    | nil => rfl
    | cons s ss ih => cases s <;> simp <;> omega
  have hall : ∀ s ∈ ss, s = .idle ∨ s = .busy ∨ s = .idleError ∨ s = .busyError := by
    intro s _; cases s <;> simp
  have hm : ∀ x, x ∈ ss ↔ 0 < ss.count x := fun x => List.count_pos_iff.symm
  have e1 : (∀ s ∈ ss, s = Archi.Status.idle) ↔ ss.count .busy = 0 ∧ ss.count .idleError = 0 ∧ ss.count .busyError = 0 := by
    simp only [List.count_eq_zero]
    exact ⟨fun h => ⟨fun hb => (nomatch h _ hb), fun hb => (nomatch h _ hb), fun hb => (nomatch h _ hb)⟩,
      fun ⟨h1, h2, h3⟩ s hs => by
        rcases hall s hs with rfl | rfl | rfl | rfl
        · rfl
        · exact absurd hs h1
        · exact absurd hs h2
        · exact absurd hs h3⟩
  have e2 : (∀ s ∈ ss, s = Archi.Status.idle ∨ s = .busy) ↔ ss.count .idleError = 0 ∧ ss.count .busyError = 0 := by
    simp only [List.count_eq_zero]
    exact ⟨fun h => ⟨fun hb => (nomatch h _ hb), fun hb => (nomatch h _ hb)⟩,
      fun ⟨h2, h3⟩ s hs => by
        rcases hall s hs with rfl | rfl | rfl | rfl
        · exact Or.inl rfl
        · exact Or.inr rfl
        · exact absurd hs h2
        · exact absurd hs h3⟩
  have e3 : (∀ s ∈ ss, s = Archi.Status.idle ∨ s = .idleError) ↔ ss.count .busy = 0 ∧ ss.count .busyError = 0 := by
    simp only [List.count_eq_zero]
    exact ⟨fun h => ⟨fun hb => (nomatch h _ hb), fun hb => (nomatch h _ hb)⟩,
      fun ⟨h2, h3⟩ s hs => by
        rcases hall s hs with rfl | rfl | rfl | rfl
        · exact Or.inl rfl
        · exact absurd hs h2
        · exact Or.inr rfl
        · exact absurd hs h3⟩
  unfold Archi.status
  simp only [key, e1, e2, e3, Nat.zero_add]
  simp only [hm]
  generalize ss.count .idle = ci at *
  generalize ss.count .busy = cb at *
  generalize ss.count .idleError = ce at *
  generalize ss.count .busyError = cbe at *
  clear key hall hm e1 e2 e3
  refine ⟨?_, ?_, ?_, ?_⟩ <;>
  · split
    · constructor <;> intro h <;> first | rfl | omega | (exfalso; revert h; decide)
    · split
      · split
        · constructor <;> intro h <;> first | rfl | omega | (exfalso; revert h; decide)
        · constructor <;> intro h <;> first | rfl | omega | (exfalso; revert h; decide)
      · split
        · constructor <;> intro h <;> first | rfl | omega | (exfalso; revert h; decide)
        · constructor <;> intro h <;> first | rfl | omega | (exfalso; revert h; decide)

/-- **C79.** `wait_check` waits for every island, in the order of insertion, and throws the first exception. -/
theorem C79_wait_check (rs : List (Option Exn)) : Archi.waitCheck rs = (rs.findSome? id, List.range rs.length) := by
  have key : ∀ (l : List (Option Exn)) (i : Nat), Archi.waitCheckFrom i l = (l.findSome? id, List.range' i l.length) := by
    intro l
    induction l with
    | nil => intro i; rfl
    | cons x l ih =>
      intro i
      cases x with
      | none => simp only [Archi.waitCheckFrom, ih]; rfl
      | some e => rfl
  unfold Archi.waitCheck
  rw [key, List.range_eq_range']

example : Archi.status [.idle, .idleError, .busy] = .busyError ∧ Archi.status [.idle, .busy] = .busy ∧
    Archi.waitCheck [none, some (.user 3), none, some (.user 5)] = (some (.user 3), [0, 1, 2, 3]) := by decide

end Verif.Props
