import Verif.Proof.Population
import Verif.Props.Constrained

/-!
# C15-C18: populations
-/

set_option autoImplicit false

namespace Verif.Props

open Verif Pop Run

section generic
variable {K : Type} [Field K] [LinearOrder K]

/-- What `get_ID()`, `get_x()`, `get_f()` of a sound population look like. -/
structure WellFormed (P : Info) (s : State K) : Prop where
  xs : s.x.length = s.id.length
  fs : s.f.length = s.id.length
  dimX : ∀ v ∈ s.x, v.length = P.nx
  dimF : ∀ v ∈ s.f, v.length = P.nf

/-- The client sees no difference between the two populations. -/
structure Unchanged (s s' : State K) : Prop where
  id : s'.id = s.id
  x : s'.x = s.x
  f : s'.f = s.f
  chX : s'.chX = s.chX
  chF : s'.chF = s.chF
  tol : s'.tol = s.tol

/-- Documented effect on the individuals of a call that returns. -/
def Effect (s s' : State K) : Op K → Prop
  | .pushX _ (.error _) => False
  | .pushX x (.ok f) => (∃ id, s'.id = s.id ++ [id]) ∧ s'.x = s.x ++ [x] ∧ s'.f = s.f ++ [f]
  | .pushXF x f => (∃ id, s'.id = s.id ++ [id]) ∧ s'.x = s.x ++ [x] ∧ s'.f = s.f ++ [f]
  | .setX _ _ (.error _) => False
  | .setX i x (.ok f) => i < s.id.length ∧ s'.id = s.id ∧ s'.x = s.x.set i x ∧ s'.f = s.f.set i f
  | .setXF i x f => i < s.id.length ∧ s'.id = s.id ∧ s'.x = s.x.set i x ∧ s'.f = s.f.set i f

/-- The arguments of the call (and the result of the user's fitness function) are acceptable. -/
def Acceptable (P : Info) (s : State K) : Op K → Prop
  | .pushX _ (.error _) => False
  | .pushX x (.ok f) => x.length = P.nx ∧ f.length = P.nf
  | .pushXF x f => x.length = P.nx ∧ f.length = P.nf
  | .setX _ _ (.error _) => False
  | .setX i x (.ok f) => i < s.id.length ∧ x.length = P.nx ∧ f.length = P.nf
  | .setXF i x f => i < s.id.length ∧ x.length = P.nx ∧ f.length = P.nf

/-- The user's function throws on a decision vector of the right size. -/
def UserThrows (P : Info) (e : Exn) : Op K → Prop
  | .pushX x (.error e') => x.length = P.nx ∧ e' = e
  | .setX _ x (.error e') => x.length = P.nx ∧ e' = e
  | _ => False

variable [IsStrictOrderedRing K]

/-- invariant of reachable populations -/
structure Inv (P : Info) (s : State K) : Prop where
  wf : WellFormed P s
  ch : ChOk P s
  tol : s.tol.length = P.nc

theorem chOk_step {sq : Fl K → Fl K} {P : Info} {x f : List (Fl K)} {s s' : State K}
    (h : ChOk P s) (hx : x.length = P.nx) (hf : f.length = P.nf)
    (hc : ChStep sq P x f s (s'.chX, s'.chF)) : ChOk P s' := by
  rcases hc with ⟨_, hc⟩ | ⟨_, _, hc⟩ | ⟨_, _, _, hc⟩ | ⟨_, _, _, hc⟩ <;>
    simp only [Prod.mk.injEq] at hc <;> unfold ChOk at * <;> rw [hc.1, hc.2]
  · exact h
  · exact Or.inr ⟨hx, hf⟩
  · exact Or.inr ⟨hx, hf⟩
  · exact h

/-- everything about one call on a sound population -/
theorem op_run {sq : Fl K → Fl K} {P : Info} (hnx : 0 < P.nx) (hnobj : 0 < P.nobj) {s : State K}
    (hi : Inv P s) (o : Op K) :
    wp (o.run sq P)
      (fun _ s' => Inv P s' ∧ Effect s s' o ∧ Acceptable P s o ∧ s'.tol = s.tol ∧
        ∃ x f, o.inserts = some (x, f) ∧ x.length = P.nx ∧ f.length = P.nf ∧
          ChStep sq P x f s (s'.chX, s'.chF))
      (fun e s' => Unchanged s s' ∧ Inv P s' ∧
        (e = .invalidArgument ∧ ¬ Acceptable P s o ∨ UserThrows P e o ∨
          e = .overflowError ∧ s.id.length = 2 ^ 64 - 1 ∨ s.faults ≠ [] ∧ e = .badAlloc)) s := by
  obtain ⟨wf, ch, tol⟩ := hi
  have push : ∀ x f, (∀ s' : State K, Effect s s' o ↔
        (∃ id, s'.id = s.id ++ [id]) ∧ s'.x = s.x ++ [x] ∧ s'.f = s.f ++ [f]) →
      (Acceptable P s o ↔ x.length = P.nx ∧ f.length = P.nf) → o.inserts = some (x, f) →
      wp (pushBackImpl sq P x f)
      (fun _ s' => Inv P s' ∧ Effect s s' o ∧ Acceptable P s o ∧ s'.tol = s.tol ∧
        ∃ x f, o.inserts = some (x, f) ∧ x.length = P.nx ∧ f.length = P.nf ∧
          ChStep sq P x f s (s'.chX, s'.chF))
      (fun e s' => Unchanged s s' ∧ Inv P s' ∧
        (e = .invalidArgument ∧ ¬ Acceptable P s o ∨ UserThrows P e o ∨
          e = .overflowError ∧ s.id.length = 2 ^ 64 - 1 ∨ s.faults ≠ [] ∧ e = .badAlloc)) s := by
    intro x f heff hacc hins
    refine wp_pushBackImpl hnx hnobj tol ch wf.xs wf.fs ?_ ?_ ?_ ?_
    · intro hx hf _ t _ c hc
      refine ⟨⟨⟨?_, ?_, ?_, ?_⟩, chOk_step ch hx hf hc, tol⟩, ?_, ?_, rfl, x, f, hins, hx, hf, hc⟩
      · simp [wf.xs]
      · simp [wf.fs]
      · intro v hv
        rcases List.mem_append.mp hv with hv | hv
        · exact wf.dimX v hv
        · rw [List.mem_singleton.mp hv, hx]
      · intro v hv
        rcases List.mem_append.mp hv with hv | hv
        · exact wf.dimF v hv
        · rw [List.mem_singleton.mp hv, hf]
      · rw [heff]; exact ⟨⟨_, rfl⟩, rfl, rfl⟩
      · rw [hacc]; exact ⟨hx, hf⟩
    · intro h
      refine ⟨⟨rfl, rfl, rfl, rfl, rfl, rfl⟩, ⟨wf, ch, tol⟩, Or.inl ⟨rfl, ?_⟩⟩
      rw [hacc]; tauto
    · intro h
      exact ⟨⟨rfl, rfl, rfl, rfl, rfl, rfl⟩, ⟨wf, ch, tol⟩, Or.inr (Or.inr (Or.inl ⟨rfl, h⟩))⟩
    · intro h t
      exact ⟨⟨rfl, rfl, rfl, rfl, rfl, rfl⟩, ⟨⟨wf.xs, wf.fs, wf.dimX, wf.dimF⟩, ch, tol⟩,
        Or.inr (Or.inr (Or.inr ⟨h, rfl⟩))⟩
  have set : ∀ i x f, (∀ s' : State K, Effect s s' o ↔
        i < s.id.length ∧ s'.id = s.id ∧ s'.x = s.x.set i x ∧ s'.f = s.f.set i f) →
      (Acceptable P s o ↔ i < s.id.length ∧ x.length = P.nx ∧ f.length = P.nf) → o.inserts = some (x, f) →
      wp (Pop.setXF sq P i x f)
      (fun _ s' => Inv P s' ∧ Effect s s' o ∧ Acceptable P s o ∧ s'.tol = s.tol ∧
        ∃ x f, o.inserts = some (x, f) ∧ x.length = P.nx ∧ f.length = P.nf ∧
          ChStep sq P x f s (s'.chX, s'.chF))
      (fun e s' => Unchanged s s' ∧ Inv P s' ∧
        (e = .invalidArgument ∧ ¬ Acceptable P s o ∨ UserThrows P e o ∨
          e = .overflowError ∧ s.id.length = 2 ^ 64 - 1 ∨ s.faults ≠ [] ∧ e = .badAlloc)) s := by
    intro i x f heff hacc hins
    refine wp_setXF hnx hnobj tol ch wf.xs wf.fs ?_ ?_ ?_
    · intro hi hx hf t _ c hc
      refine ⟨⟨⟨?_, ?_, ?_, ?_⟩, chOk_step ch hx hf hc, tol⟩, ?_, ?_, rfl, x, f, hins, hx, hf, hc⟩
      · simp [wf.xs]
      · simp [wf.fs]
      · intro v hv
        rcases List.mem_or_eq_of_mem_set hv with hv | hv
        · exact wf.dimX v hv
        · rw [hv, hx]
      · intro v hv
        rcases List.mem_or_eq_of_mem_set hv with hv | hv
        · exact wf.dimF v hv
        · rw [hv, hf]
      · rw [heff]; exact ⟨hi, rfl, rfl, rfl⟩
      · rw [hacc]; exact ⟨hi, hx, hf⟩
    · intro h
      refine ⟨⟨rfl, rfl, rfl, rfl, rfl, rfl⟩, ⟨wf, ch, tol⟩, Or.inl ⟨rfl, ?_⟩⟩
      rw [hacc]
      rintro ⟨a, b, c⟩
      rcases h with h | h | h
      · omega
      · exact h b
      · exact h c
    · intro h t
      exact ⟨⟨rfl, rfl, rfl, rfl, rfl, rfl⟩, ⟨⟨wf.xs, wf.fs, wf.dimX, wf.dimF⟩, ch, tol⟩,
        Or.inr (Or.inr (Or.inr ⟨h, rfl⟩))⟩
  have same : Unchanged s s := ⟨rfl, rfl, rfl, rfl, rfl, rfl⟩
  cases o with
  | pushXF x f => exact push x f (fun _ => Iff.rfl) Iff.rfl rfl
  | setXF i x f => exact set i x f (fun _ => Iff.rfl) Iff.rfl rfl
  | pushX x user =>
    unfold Op.run probFitness
    rw [wp_bind]
    split
    · rename_i h
      refine ⟨same, ⟨wf, ch, tol⟩, Or.inl ⟨rfl, ?_⟩⟩
      cases user with
      | error e => simp [Acceptable]
      | ok f => exact fun h' => h h'.1
    · rename_i h
      push Not at h
      cases user with
      | error e => exact ⟨same, ⟨wf, ch, tol⟩, Or.inr (Or.inl ⟨h, rfl⟩)⟩
      | ok f =>
        dsimp only
        split
        · rename_i h'
          exact ⟨same, ⟨wf, ch, tol⟩, Or.inl ⟨rfl, fun h'' => h' h''.2⟩⟩
        · exact push x f (fun _ => Iff.rfl) Iff.rfl rfl
  | setX i x user =>
    unfold Op.run probFitness
    rw [wp_bind]
    split
    · rename_i h
      refine ⟨same, ⟨wf, ch, tol⟩, Or.inl ⟨rfl, ?_⟩⟩
      cases user with
      | error e => simp [Acceptable]
      | ok f => exact fun h' => h h'.2.1
    · rename_i h
      push Not at h
      cases user with
      | error e => exact ⟨same, ⟨wf, ch, tol⟩, Or.inr (Or.inl ⟨h, rfl⟩)⟩
      | ok f =>
        dsimp only
        split
        · rename_i h'
          exact ⟨same, ⟨wf, ch, tol⟩, Or.inl ⟨rfl, fun h'' => h' h''.2.2⟩⟩
        · exact set i x f (fun _ => Iff.rfl) Iff.rfl rfl

theorem inv_empty {P : Info} {tol : List (Fl K)} (htol : tol.length = P.nc) (rng : Nat → Nat)
    (faults : List Bool) : Inv P (Pop.empty tol rng faults) :=
  ⟨⟨rfl, rfl, by simp [Pop.empty], by simp [Pop.empty]⟩, Or.inl ⟨rfl, rfl⟩, htol⟩

theorem history_inv {sq : Fl K → Fl K} {P : Info} (hnx : 0 < P.nx) (hnobj : 0 < P.nobj) (ops : List (Op K)) :
    ∀ (s : State K) (ins : List (List (Fl K) × List (Fl K))), Inv P s →
      ∃ s' ins', history sq P ops s ins = some (s', ins') ∧ Inv P s' := by
  induction ops with
  | nil => intro s ins hi; exact ⟨s, ins, rfl, hi⟩
  | cons o os ih =>
    intro s ins hi
    have := op_run (sq := sq) hnx hnobj hi o
    rw [wp_iff_exists] at this
    rcases this with ⟨a, s', hr, h⟩ | ⟨e, s', hr, h⟩
    · obtain ⟨t, l, h1, h2⟩ := ih s' (ins ++ o.inserts.toList) h.1
      exact ⟨t, l, by simp only [history, hr]; exact h1, h2⟩
    · obtain ⟨t, l, h1, h2⟩ := ih s' ins h.2.1
      exact ⟨t, l, by simp only [history, hr]; exact h1, h2⟩

/-- C15 (shape). From an empty population, after any sequence of calls, some of which may throw (bad arguments,
user exceptions, failed allocations anywhere), the population is well formed; undefined behaviour never
happens. -/
theorem C15_wellformed (sq : Fl K → Fl K) (P : Info) (hnx : 0 < P.nx) (hnobj : 0 < P.nobj)
    (tol : List (Fl K)) (htol : tol.length = P.nc) (rng : Nat → Nat) (faults : List Bool) (ops : List (Op K)) :
    ∃ s ins, history sq P ops (Pop.empty tol rng faults) [] = some (s, ins) ∧ WellFormed P s := by
  obtain ⟨s, ins, h, hi⟩ := history_inv (sq := sq) hnx hnobj ops _ [] (inv_empty htol rng faults)
  exact ⟨s, ins, h, hi.wf⟩

/-- C15 (each call). In every reachable population a call either returns, having appended or replaced exactly
one individual (IDs of existing individuals are kept), or throws and the client sees the population as it was,
champion included. -/
theorem C15_call (sq : Fl K → Fl K) (P : Info) (hnx : 0 < P.nx) (hnobj : 0 < P.nobj)
    (tol : List (Fl K)) (htol : tol.length = P.nc) (rng : Nat → Nat) (faults : List Bool) (ops : List (Op K))
    (s : State K) (ins : List (List (Fl K) × List (Fl K)))
    (hs : history sq P ops (Pop.empty tol rng faults) [] = some (s, ins)) (o : Op K) :
    (∃ s', o.run sq P s = (.ok (), s') ∧ Effect s s' o) ∨
    (∃ e s', o.run sq P s = (.throws e, s') ∧ Unchanged s s') := by
  obtain ⟨s', ins', h, hi⟩ := history_inv (sq := sq) hnx hnobj ops _ [] (inv_empty htol rng faults)
  rw [hs] at h; cases h
  have := op_run (sq := sq) hnx hnobj hi o
  rw [wp_iff_exists] at this
  rcases this with ⟨a, s', hr, h⟩ | ⟨e, s', hr, h⟩
  · exact Or.inl ⟨s', hr, h.2.1⟩
  · exact Or.inr ⟨e, s', hr, h.1⟩

/-- C15 (which calls fail). Without allocation failures and below the maximum size a call returns exactly when
its arguments are acceptable; otherwise it throws the user's exception or `std::invalid_argument`. -/
theorem C15_accepts (sq : Fl K → Fl K) (P : Info) (hnx : 0 < P.nx) (hnobj : 0 < P.nobj)
    (tol : List (Fl K)) (htol : tol.length = P.nc) (rng : Nat → Nat) (faults : List Bool) (ops : List (Op K))
    (s : State K) (ins : List (List (Fl K) × List (Fl K)))
    (hs : history sq P ops (Pop.empty tol rng faults) [] = some (s, ins)) (o : Op K)
    (hf : s.faults = []) (hsz : s.id.length < 2 ^ 64 - 1) :
    (Acceptable P s o ∧ ∃ s', o.run sq P s = (.ok (), s')) ∨
    (¬ Acceptable P s o ∧ ∃ e s', o.run sq P s = (.throws e, s') ∧ (e = .invalidArgument ∨ UserThrows P e o)) := by
  obtain ⟨s', ins', h, hi⟩ := history_inv (sq := sq) hnx hnobj ops _ [] (inv_empty htol rng faults)
  rw [hs] at h; cases h
  have := op_run (sq := sq) hnx hnobj hi o
  rw [wp_iff_exists] at this
  rcases this with ⟨a, s', hr, h⟩ | ⟨e, s', hr, h⟩
  · exact Or.inl ⟨h.2.2.1, s', hr⟩
  · rcases h.2.2 with h' | h' | h' | h'
    · exact Or.inr ⟨h'.2, e, s', hr, Or.inl h'.1⟩
    · refine Or.inr ⟨?_, e, s', hr, Or.inr h'⟩
      cases o with
      | pushX x u => cases u <;> simp_all [UserThrows, Acceptable]
      | setX i x u => cases u <;> simp_all [UserThrows, Acceptable]
      | pushXF x f => exact absurd h' (by simp [UserThrows])
      | setXF i x f => exact absurd h' (by simp [UserThrows])
    · omega
    · exact absurd hf h'.1

/-! ### non-triviality: a history with a failed allocation, a rejected call and a user exception -/

/-- one variable, one objective, no constraints -/
def P1 : Info := ⟨1, 1, 0, 0, false⟩

/-- the third allocation of the first call fails; then two insertions, a wrong size, a user exception, a
replacement -/
def demoOps : List (Op ℚ) :=
  [.pushXF [.fin 9] [.fin 9], .pushXF [.fin 1] [.fin 5], .pushX [.fin 2] (.ok [.nan]),
   .pushXF [.fin 1, .fin 2] [.fin 0], .setX 0 [.fin 3] (.error (.user 7)), .setXF 1 [.fin 4] [.fin 3]]

example : (history id P1 demoOps (Pop.empty [] (fun n => 10 * n) [false, false, true]) []).map
      (fun r => (r.1.id, r.1.x, r.1.f)) =
    some ([10, 20], [[.fin 1], [.fin 4]], [[.fin 5], [.fin 3]]) := by decide +kernel

example : (history id P1 demoOps (Pop.empty [] (fun n => 10 * n) [false, false, true]) []).map
      (fun r => (r.1.chX, r.1.chF)) = some ([.fin 4], [.fin 3]) := by decide +kernel

example : (history id P1 demoOps (Pop.empty [] (fun n => 10 * n) [false, false, true]) []).map (fun r => r.2) =
    some [([.fin 1], [.fin 5]), ([.fin 2], [.nan]), ([.fin 4], [.fin 3])] := by decide +kernel

example : 0 < P1.nx ∧ 0 < P1.nobj ∧ ([] : List (Fl ℚ)).length = P1.nc := by decide

/-! ## C16 -/

/-- better-than for an unconstrained problem: smaller first (only) fitness component, NaN last -/
def Lower (f g : List (Fl K)) : Prop := ∃ a b, f[0]? = some a ∧ g[0]? = some b ∧ a < b

/-- champion against the inserted pairs -/
def ChampOf (better : List (Fl K) → List (Fl K) → Prop) (s : State K)
    (ins : List (List (Fl K) × List (Fl K))) : Prop :=
  (ins = [] ∧ s.chX = [] ∧ s.chF = []) ∨
  ((s.chX, s.chF) ∈ ins ∧ ∀ p ∈ ins, ¬ better p.2 s.chF)

theorem champ_history {sq : Fl K → Fl K} {P : Info} (hnx : 0 < P.nx) (hnobj : P.nobj = 1)
    {tol : List (Fl K)}
    (irr : ∀ f : List (Fl K), f.length = P.nf → ¬ Beats sq P tol f f)
    (tr : ∀ f g h : List (Fl K), f.length = P.nf → g.length = P.nf → h.length = P.nf →
      Beats sq P tol f g → Beats sq P tol g h → Beats sq P tol f h) (ops : List (Op K)) :
    ∀ (s : State K) (ins : List (List (Fl K) × List (Fl K))), Inv P s → s.tol = tol →
      (∀ p ∈ ins, p.1.length = P.nx ∧ p.2.length = P.nf) → ChampOf (Beats sq P tol) s ins →
      ∀ s' ins', history sq P ops s ins = some (s', ins') → ChampOf (Beats sq P tol) s' ins' := by
  induction ops with
  | nil => intro s ins _ _ _ hc s' ins' h; simp only [history, Option.some.injEq, Prod.mk.injEq] at h
           rw [← h.1, ← h.2]; exact hc
  | cons o os ih =>
    intro s ins hi ht hl hc s' ins' h
    have := op_run (sq := sq) hnx (by omega) hi o
    rw [wp_iff_exists] at this
    rcases this with ⟨a, t, hr, hI, _, _, htol, x, f, hins, hx, hf, hstep⟩ | ⟨e, t, hr, hu, hI, _⟩
    · simp only [history, hr, hins, Option.toList_some] at h
      refine ih t _ hI (htol.trans ht) ?_ ?_ s' ins' h
      · intro p hp
        rcases List.mem_append.mp hp with hp | hp
        · exact hl p hp
        · rw [List.mem_singleton.mp hp]; exact ⟨hx, hf⟩
      · rw [ChStep, ht] at hstep
        right
        rcases hstep with ⟨h1, _⟩ | ⟨_, h0, h1⟩ | ⟨_, h0, hb, h1⟩ | ⟨_, h0, hb, h1⟩
        · exact absurd hnobj h1
        · simp only [Prod.mk.injEq] at h1
          have hi0 : ins = [] := by
            rcases hc with hc | hc
            · exact hc.1
            · have := (hl _ hc.1).1
              rw [h0] at this; simp at this; omega
          rw [h1.1, h1.2, hi0]
          refine ⟨by simp, ?_⟩
          intro p hp
          simp only [List.nil_append, List.mem_singleton] at hp
          rw [hp]; exact irr f hf
        · simp only [Prod.mk.injEq] at h1
          rw [h1.1, h1.2]
          refine ⟨by simp, ?_⟩
          intro p hp hbp
          rcases List.mem_append.mp hp with hp | hp
          · rcases hc with hc | hc
            · exact h0 hc.2.1
            · exact hc.2 p hp (tr _ _ _ (hl p hp).2 hf (hl _ hc.1).2 hbp hb)
          · rw [List.mem_singleton.mp hp] at hbp; exact irr f hf hbp
        · simp only [Prod.mk.injEq] at h1
          rw [h1.1, h1.2]
          rcases hc with hc | hc
          · exact absurd hc.2.1 h0
          · refine ⟨List.mem_append_left _ hc.1, ?_⟩
            intro p hp hbp
            rcases List.mem_append.mp hp with hp | hp
            · exact hc.2 p hp hbp
            · rw [List.mem_singleton.mp hp] at hbp; exact hb hbp
    · simp only [history, hr] at h
      refine ih t ins hI (hu.tol.trans ht) hl ?_ s' ins' h
      unfold ChampOf
      rw [hu.chX, hu.chF]; exact hc

/-- C16 (unconstrained). The champion is one of the pairs ever inserted and none of them has a smaller objective
value (NaN counts as larger than anything); it is empty if nothing was inserted. -/
theorem C16_unconstrained (sq : Fl K → Fl K) (P : Info) (hnx : 0 < P.nx) (hnobj : P.nobj = 1) (hnc : P.nc = 0)
    (hst : P.stochastic = false) (rng : Nat → Nat) (faults : List Bool) (ops : List (Op K)) (s : State K)
    (ins : List (List (Fl K) × List (Fl K)))
    (hs : history sq P ops (Pop.empty [] rng faults) [] = some (s, ins)) :
    championX P s = .ok s.chX ∧ championF P s = .ok s.chF ∧
    ((ins = [] ∧ s.chX = [] ∧ s.chF = []) ∨
     ((s.chX, s.chF) ∈ ins ∧ ∀ p ∈ ins, ¬ Lower p.2 s.chF)) := by
  refine ⟨by simp [championX, hnobj, hst], by simp [championF, hnobj, hst], ?_⟩
  have e : ∀ f g : List (Fl K), Beats sq P [] f g ↔ Lower f g := fun f g => by
    rw [Beats, if_pos hnc, Lower]
  have := champ_history (sq := sq) hnx hnobj (tol := []) ?_ ?_ ops _ [] (inv_empty (by simp [hnc]) rng faults) rfl
    (by simp) (Or.inl ⟨rfl, rfl, rfl⟩) s ins hs
  · unfold ChampOf at this
    simpa only [e] using this
  · intro f _ h
    rw [e] at h
    obtain ⟨a, b, h1, h2, h3⟩ := h
    rw [h1] at h2; cases h2; exact lt_irrefl _ h3
  · intro f g h _ _ _ h1 h2
    rw [e] at *
    obtain ⟨a, b, e1, e2, l1⟩ := h1
    obtain ⟨b', c, e3, e4, l2⟩ := h2
    rw [e2] at e3; cases e3
    exact ⟨a, c, e1, e4, lt_trans l1 l2⟩

omit [Field K] [LinearOrder K] [IsStrictOrderedRing K] in
/-- C16 (accessors). For a multi-objective or stochastic problem both champion accessors throw. -/
theorem C16_accessors_throw (P : Info) (s : State K) (h : 1 < P.nobj ∨ P.stochastic = true) :
    championX P s = .throws .invalidArgument ∧ championF P s = .throws .invalidArgument := by
  constructor
  · unfold championX
    split
    · rfl
    · rename_i h1; rw [if_pos (by rcases h with h | h; · exact absurd h h1
                                  · exact h)]
  · unfold championF
    split
    · rfl
    · rename_i h1; rw [if_pos (by rcases h with h | h; · exact absurd h h1
                                  · exact h)]

end generic

/-- C16 (constrained). The champion is one of the pairs ever inserted, and no pair ever inserted is better
according to `compare_fc` with the problem's tolerances. Doubles are modelled by the extended reals with NaN,
arithmetic exact. -/
theorem C16_constrained (P : Info) (hnx : 0 < P.nx) (hnobj : P.nobj = 1) (hnc : 0 < P.nc)
    (hst : P.stochastic = false) (tol : List (Fl ℝ)) (htol : tol.length = P.nc) (rng : Nat → Nat)
    (faults : List Bool) (ops : List (Op ℝ)) (s : State ℝ) (ins : List (List (Fl ℝ) × List (Fl ℝ)))
    (hs : history Fl.sqrtR P ops (Pop.empty tol rng faults) [] = some (s, ins)) :
    championX P s = .ok s.chX ∧ championF P s = .ok s.chF ∧
    ((ins = [] ∧ s.chX = [] ∧ s.chF = []) ∨
     ((s.chX, s.chF) ∈ ins ∧ ∀ p ∈ ins, ¬ FcBetter P.nec tol p.2 s.chF)) := by
  refine ⟨by simp [championX, hnobj, hst], by simp [championF, hnobj, hst], ?_⟩
  have e : ∀ f g : List (Fl ℝ), Beats Fl.sqrtR P tol f g ↔ FcBetter P.nec tol f g := fun f g => by
    rw [Beats, if_neg (by omega), FcBetter]
  have v : ∀ f : List (Fl ℝ), f.length = P.nf → FcArgs P.nec tol f := by
    intro f hf
    refine ⟨?_, ?_⟩ <;> simp only [Info.nf, Info.nc] at * <;> omega
  obtain ⟨irr, _, tr⟩ := C11_strict_partial_order_partial P.nec tol
  have := champ_history (sq := Fl.sqrtR) hnx hnobj (tol := tol) ?_ ?_ ops _ [] (inv_empty htol rng faults) rfl
    (by simp) (Or.inl ⟨rfl, rfl, rfl⟩) s ins hs
  · unfold ChampOf at this
    simpa only [e] using this
  · intro f hf h
    rw [e] at h
    exact irr f (v f hf) h
  · intro f g h hf hg hh h1 h2
    rw [e] at *
    exact tr f g h (v f hf) (v g hg) (v h hh) h1 h2

/-- one variable, one objective, one inequality -/
def P2 : Info := ⟨1, 1, 0, 1, false⟩

/-- C16 does not extend to clients that change the tolerances with `get_problem().set_c_tol()`: the champion is
not recomputed, an inserted individual can then be better than it. -/
theorem C16_stale_after_set_c_tol :
    ∃ (ops : List (Op ℚ)) (s s' : State ℚ) (ins : List (List (Fl ℚ) × List (Fl ℚ))),
      history id P2 ops (Pop.empty [.fin 0] (fun n => n) []) [] = some (s, ins) ∧
      setTol P2 [.fin 2] s = (.ok (), s') ∧
      ∃ p ∈ ins, Con.compareFc id p.2 s'.chF P2.nec s'.tol = .ok true := by
  have h : (history id P2 [.pushXF [.fin 1] [.fin 0, .fin 1], .pushXF [.fin 2] [.fin 5, .fin 0]]
      (Pop.empty [.fin 0] (fun n => n) []) []).map (fun r => (r.1.chF, r.2)) =
      some ([.fin (5 : ℚ), .fin 0], [([.fin 1], [.fin 0, .fin 1]), ([.fin 2], [.fin 5, .fin 0])]) := by
    decide +kernel
  obtain ⟨⟨s, ins⟩, h1, h2⟩ := Option.map_eq_some_iff.mp h
  simp only [Prod.mk.injEq] at h2
  refine ⟨_, s, { s with tol := [.fin 2] }, ins, h1, ?_, ([.fin 1], [.fin 0, .fin 1]), ?_, ?_⟩
  · have : Con.setCTol P2.nc [.fin (2 : ℚ)] = .ok [.fin 2] := by decide +kernel
    simp only [setTol, this]
    rfl
  · rw [h2.2]; simp
  · dsimp only; rw [h2.1]; decide +kernel

/-! ## C17 -/

section generic
variable {K : Type} [Field K] [LinearOrder K]

theorem vecLt_single {f g : List (Fl K)} (hf : f.length = 1) (hg : g.length = 1) (hnf : Fl.nan ∉ f)
    (hng : Fl.nan ∉ g) : vecLt f g = true ↔ Lower f g := by
  match f, g, hf, hg with
  | [a], [b], _, _ =>
    simp only [List.mem_singleton] at hnf hng
    simp only [vecLt, Lower, List.getElem?_cons_zero, Option.some.injEq, exists_eq_left', exists_and_left]
    rw [← Fl.lessThanF_iff]
    cases a <;> cases b <;> simp_all [Fl.lt, Fl.lessThanF, Fl.isNan]

theorem lower_irrefl {f : List (Fl K)} : ¬ Lower f f := by
  rintro ⟨a, b, h1, h2, h3⟩
  rw [h1] at h2; cases h2; exact lt_irrefl _ h3

theorem lower_trans {f g h : List (Fl K)} (h1 : Lower f g) (h2 : Lower g h) : Lower f h := by
  obtain ⟨a, b, e1, e2, l1⟩ := h1
  obtain ⟨b', c, e3, e4, l2⟩ := h2
  rw [e2] at e3; cases e3
  exact ⟨a, c, e1, e4, lt_trans l1 l2⟩

/-- fitness vectors of an unconstrained single-objective problem without NaN -/
def Plain (f : List (Fl K)) : Prop := f.length = 1 ∧ Fl.nan ∉ f

theorem minElement_spec (vs : List (List (Fl K))) :
    ∀ (pre : List (List (Fl K))) (best : List (Fl K)) (bi : Nat), (∀ f ∈ pre ++ vs, Plain f) →
      pre[bi]? = some best → (∀ f ∈ pre, ¬ Lower f best) →
      ∃ f, (pre ++ vs)[minElement vs best bi pre.length]? = some f ∧ ∀ g ∈ pre ++ vs, ¬ Lower g f := by
  induction vs with
  | nil => intro pre best bi _ h1 h2; exact ⟨best, by simpa [minElement] using h1, by simpa using h2⟩
  | cons v vs ih =>
    intro pre best bi hp h1 h2
    have hv := hp v (by simp)
    have hb := hp best (List.mem_append_left _ (List.mem_of_getElem? h1))
    have e : pre ++ v :: vs = (pre ++ [v]) ++ vs := by simp
    have hlt := (List.getElem?_eq_some_iff.mp h1).1
    rw [minElement]
    have hl : pre.length + 1 = (pre ++ [v]).length := by simp
    rw [hl, e]
    rw [e] at hp
    split
    · rename_i h
      rw [vecLt_single hv.1 hb.1 hv.2 hb.2] at h
      refine ih (pre ++ [v]) v pre.length hp (by simp) ?_
      intro f hf hfv
      rcases List.mem_append.mp hf with hf | hf
      · exact h2 f hf (lower_trans hfv h)
      · rw [List.mem_singleton.mp hf] at hfv; exact lower_irrefl hfv
    · rename_i h
      rw [vecLt_single hv.1 hb.1 hv.2 hb.2] at h
      refine ih (pre ++ [v]) best bi hp (by rw [List.getElem?_append_left hlt]; exact h1) ?_
      intro f hf hfv
      rcases List.mem_append.mp hf with hf | hf
      · exact h2 f hf hfv
      · rw [List.mem_singleton.mp hf] at hfv; exact h hfv

theorem maxElement_spec (vs : List (List (Fl K))) :
    ∀ (pre : List (List (Fl K))) (best : List (Fl K)) (bi : Nat), (∀ f ∈ pre ++ vs, Plain f) →
      pre[bi]? = some best → (∀ f ∈ pre, ¬ Lower best f) →
      ∃ f, (pre ++ vs)[maxElement vs best bi pre.length]? = some f ∧ ∀ g ∈ pre ++ vs, ¬ Lower f g := by
  induction vs with
  | nil => intro pre best bi _ h1 h2; exact ⟨best, by simpa [maxElement] using h1, by simpa using h2⟩
  | cons v vs ih =>
    intro pre best bi hp h1 h2
    have hv := hp v (by simp)
    have hb := hp best (List.mem_append_left _ (List.mem_of_getElem? h1))
    have e : pre ++ v :: vs = (pre ++ [v]) ++ vs := by simp
    have hlt := (List.getElem?_eq_some_iff.mp h1).1
    rw [maxElement]
    have hl : pre.length + 1 = (pre ++ [v]).length := by simp
    rw [hl, e]
    rw [e] at hp
    split
    · rename_i h
      rw [vecLt_single hb.1 hv.1 hb.2 hv.2] at h
      refine ih (pre ++ [v]) v pre.length hp (by simp) ?_
      intro f hf hfv
      rcases List.mem_append.mp hf with hf | hf
      · exact h2 f hf (lower_trans h hfv)
      · rw [List.mem_singleton.mp hf] at hfv; exact lower_irrefl hfv
    · rename_i h
      rw [vecLt_single hb.1 hv.1 hb.2 hv.2] at h
      refine ih (pre ++ [v]) best bi hp (by rw [List.getElem?_append_left hlt]; exact h1) ?_
      intro f hf hfv
      rcases List.mem_append.mp hf with hf | hf
      · exact h2 f hf hfv
      · rw [List.mem_singleton.mp hf] at hfv; exact h hfv

/-- C17 (unconstrained). `_partial`: the claim includes NaN objective values, for which it is false, see
`C17_nan`. For NaN-free objectives `best_idx()`/`worst_idx()` return an index of an individual that no other
beats / that beats no other. The population has at most 2^63 individuals. -/
theorem C17_unconstrained_partial (srt : (Nat → Nat → Bool) → List Nat → List Nat) (sq : Fl K → Fl K) (P : Info)
    (hnobj : P.nobj = 1) (hnc : P.nc = 0) (fs : List (List (Fl K))) (hne : fs ≠ []) (hsz : fs.length ≤ 2 ^ 63)
    (hdim : ∀ f ∈ fs, f.length = P.nf) (hnan : ∀ f ∈ fs, Fl.nan ∉ f) (tol : List (Fl K)) :
    (∃ i f, bestIdx srt sq P fs tol = .ok i ∧ fs[i]? = some f ∧ ∀ g ∈ fs, ¬ Lower g f) ∧
    (∃ i f, worstIdx srt sq P fs tol = .ok i ∧ fs[i]? = some f ∧ ∀ g ∈ fs, ¬ Lower f g) := by
  have hnf : P.nf = 1 := by simp only [Info.nf, Info.nc] at *; omega
  have hp : ∀ f ∈ fs, Plain f := fun f hf => ⟨(hdim f hf).trans hnf, hnan f hf⟩
  obtain ⟨f0, rest, rfl⟩ := List.exists_cons_of_ne_nil hne
  constructor
  · obtain ⟨f, h1, h2⟩ := minElement_spec rest [f0] f0 0 hp rfl (by simpa using lower_irrefl)
    refine ⟨_, f, ?_, h1, h2⟩
    unfold bestIdx
    dsimp only
    rw [if_neg (by omega), if_neg (by omega), if_neg (by omega)]
    rfl
  · obtain ⟨f, h1, h2⟩ := maxElement_spec rest [f0] f0 0 hp rfl (by simpa using lower_irrefl)
    refine ⟨_, f, ?_, h1, h2⟩
    unfold worstIdx
    dsimp only
    rw [if_neg (by omega), if_neg (by omega), if_neg (by omega)]
    rfl

/-- C17 (errors). An empty population, or more than one objective, makes both functions throw. -/
theorem C17_throws (srt : (Nat → Nat → Bool) → List Nat → List Nat) (sq : Fl K → Fl K) (P : Info)
    (fs : List (List (Fl K))) (tol : List (Fl K)) (h : fs = [] ∨ 1 < P.nobj) :
    bestIdx srt sq P fs tol = .throws .invalidArgument ∧
    worstIdx srt sq P fs tol = .throws .invalidArgument := by
  rcases h with rfl | h
  · exact ⟨rfl, rfl⟩
  · cases fs with
    | nil => exact ⟨rfl, rfl⟩
    | cons a l => exact ⟨by simp [bestIdx, h], by simp [worstIdx, h]⟩

end generic

example : ∃ i f, bestIdx insSort id P1 [[.fin 3], [.fin 1], [.fin (2 : ℚ)]] [] = .ok i ∧
    [[.fin 3], [.fin 1], [.fin (2 : ℚ)]][i]? = some f ∧
    ∀ g ∈ [[.fin 3], [.fin 1], [.fin (2 : ℚ)]], ¬ Lower g f :=
  (C17_unconstrained_partial insSort id P1 rfl rfl _ (by simp) (by simp) (by decide) (by decide +kernel) []).1

/-- C17 is false with NaN objectives: here `best_idx()` returns the NaN individual although the other one has a
number, and `worst_idx()` returns the other one. -/
theorem C17_nan (srt : (Nat → Nat → Bool) → List Nat → List Nat) :
    bestIdx srt id P1 [[.nan], [.fin (1 : ℚ)]] [] = .ok 0 ∧ Lower [.fin (1 : ℚ)] [.nan] ∧
    worstIdx srt id P1 [[.fin (1 : ℚ)], [.nan]] [] = .ok 0 := by
  refine ⟨rfl, ⟨_, _, rfl, rfl, ?_⟩, rfl⟩
  rw [← Fl.lessThanF_iff]; rfl

/-- C17 (constrained). `_partial`: only for problems whose constraints are all of one kind; with both kinds the
sort inside is undefined behaviour on some inputs (`C13_sort_undefined_behaviour`). -/
theorem C17_constrained_partial (srt : (Nat → Nat → Bool) → List Nat → List Nat) (hsrt : ValidSort srt)
    (P : Info) (hnobj : P.nobj = 1) (hnc : 0 < P.nc) (hk : P.nec = 0 ∨ P.nic = 0)
    (fs : List (List (Fl ℝ))) (hne : fs ≠ []) (hdim : ∀ f ∈ fs, f.length = P.nf) (tol : List (Fl ℝ))
    (htol : tol.length = P.nc) :
    (∃ i f, bestIdx srt Fl.sqrtR P fs tol = .ok i ∧ fs[i]? = some f ∧ ∀ g ∈ fs, ¬ FcBetter P.nec tol g f) ∧
    (∃ i f, worstIdx srt Fl.sqrtR P fs tol = .ok i ∧ fs[i]? = some f ∧ ∀ g ∈ fs, ¬ FcBetter P.nec tol f g) := by
  have v : ∀ f ∈ fs, FcArgs P.nec tol f := by
    intro f hf
    have := hdim f hf
    refine ⟨?_, ?_⟩ <;> simp only [Info.nf, Info.nc] at * <;> omega
  have irr := (C11_strict_partial_order_partial P.nec tol).1
  have hs := C13_sort_partial srt hsrt fs P.nec tol (by simp only [Info.nc] at *; omega) v
  obtain ⟨idx, he, hperm, hpw⟩ := hs
  have hlen : idx.length = fs.length := by rw [hperm.length_eq, List.length_range]
  have hpos : 0 < idx.length := by rw [hlen]; exact List.length_pos_iff.mpr hne
  have hin : ∀ k, (h : k < idx.length) → idx[k] < fs.length := fun k h => by
    have := hperm.mem_iff.mp (List.getElem_mem h)
    simpa using this
  have hex : ∀ g ∈ fs, ∃ k, ∃ h : k < idx.length, fs[idx[k]]? = some g := by
    intro g hg
    obtain ⟨j, hj, rfl⟩ := List.mem_iff_getElem.mp hg
    have : j ∈ idx := hperm.mem_iff.mpr (by simpa using hj)
    obtain ⟨k, hk, e⟩ := List.mem_iff_getElem.mp this
    exact ⟨k, hk, by rw [e, List.getElem?_eq_getElem hj]⟩
  rw [List.pairwise_iff_getElem] at hpw
  obtain ⟨f0, rest, hfs⟩ := List.exists_cons_of_ne_nil hne
  constructor
  · refine ⟨idx[0], fs[idx[0]]'(hin 0 hpos), ?_, List.getElem?_eq_getElem _, ?_⟩
    · rw [hfs] at he ⊢
      rw [bestIdx, if_neg (by omega), if_pos hnc, he]
      exact Outcome.get_of_lt hpos
    · intro g hg
      obtain ⟨k, hk, e⟩ := hex g hg
      by_cases h0 : k = 0
      · subst h0
        rw [List.getElem?_eq_getElem (hin 0 hpos), Option.some.injEq] at e
        rw [← e]; exact irr _ (v _ (List.getElem_mem _))
      · exact hpw 0 k hpos hk (by omega) _ _ (List.getElem?_eq_getElem _) e
  · have hl : idx.length - 1 < idx.length := by omega
    refine ⟨idx[idx.length - 1], fs[idx[idx.length - 1]]'(hin _ hl), ?_, List.getElem?_eq_getElem _, ?_⟩
    · rw [hfs] at he ⊢
      rw [worstIdx, if_neg (by omega), if_pos hnc, he]
      exact Outcome.get_of_lt hl
    · intro g hg
      obtain ⟨k, hk, e⟩ := hex g hg
      by_cases h0 : k = idx.length - 1
      · subst h0
        rw [List.getElem?_eq_getElem (hin _ hl), Option.some.injEq] at e
        rw [← e]; exact irr _ (v _ (List.getElem_mem _))
      · exact hpw k _ hk hl (by omega) _ _ e (List.getElem?_eq_getElem _)

example : ∃ i f, bestIdx insSort Fl.sqrtR P2 [[.fin 3, .fin 1], [.fin 1, .fin 0]] [.fin 0] = .ok i ∧
    [[.fin 3, .fin 1], [.fin 1, .fin 0]][i]? = some f ∧
    ∀ g ∈ [[.fin 3, .fin 1], [.fin 1, .fin 0]], ¬ FcBetter 0 [.fin 0] g f :=
  (C17_constrained_partial insSort insSort_valid P2 rfl (by decide) (Or.inl rfl) _ (by simp) (by simp [P2, Info.nf])
    [.fin 0] rfl).1

/-! ## C18 -/

/-- C18 is false: `island::set_individuals` (used when migrants are accepted) replaces the individuals without
updating the champion, so a migrant better than the champion leaves a population whose champion is worse than
one of its members. -/
theorem C18_migration_leaves_champion_stale :
    ∃ (ops : List (Op ℚ)) (s : State ℚ) (ins : List (List (Fl ℚ) × List (Fl ℚ))),
      history id P1 ops (Pop.empty [] (fun n => n) []) [] = some (s, ins) ∧
      ∃ f ∈ (setIndividuals [7] [[.fin 0]] [[.fin 0]] s).f,
        Lower f (setIndividuals [7] [[.fin 0]] [[.fin 0]] s).chF := by
  have h : (history id P1 [.pushXF [.fin 1] [.fin 1]]
      (Pop.empty [] (fun n => n) []) []).map (fun r => r.1.chF) = some [.fin (1 : ℚ)] := by
    decide +kernel
  obtain ⟨⟨s, ins⟩, h1, h2⟩ := Option.map_eq_some_iff.mp h
  refine ⟨_, s, ins, h1, [.fin 0], by simp [setIndividuals], ?_⟩
  have h2 : s.chF = [.fin (1 : ℚ)] := h2
  simp only [setIndividuals, h2]
  refine ⟨_, _, rfl, rfl, ?_⟩
  rw [← Fl.lessThanF_iff]; decide +kernel

section generic
variable {K : Type} [Field K] [LinearOrder K] [IsStrictOrderedRing K]

theorem current_inserted {sq : Fl K → Fl K} {P : Info} (hnx : 0 < P.nx) (hnobj : 0 < P.nobj)
    (ops : List (Op K)) :
    ∀ (s : State K) (ins : List (List (Fl K) × List (Fl K))), Inv P s →
      (∀ f ∈ s.f, ∃ p ∈ ins, p.2 = f) →
      ∀ s' ins', history sq P ops s ins = some (s', ins') → ∀ f ∈ s'.f, ∃ p ∈ ins', p.2 = f := by
  induction ops with
  | nil =>
    intro s ins _ hc s' ins' h
    simp only [history, Option.some.injEq, Prod.mk.injEq] at h
    rw [← h.1, ← h.2]; exact hc
  | cons o os ih =>
    intro s ins hi hc s' ins' h
    have := op_run (sq := sq) hnx hnobj hi o
    rw [wp_iff_exists] at this
    rcases this with ⟨a, t, hr, hI, heff, _, _, x, f, hins, _⟩ | ⟨e, t, hr, hu, hI, _⟩
    · simp only [history, hr, hins, Option.toList_some] at h
      refine ih t _ hI ?_ s' ins' h
      have old : ∀ g ∈ s.f, ∃ p ∈ ins ++ [(x, f)], p.2 = g := fun g hg => by
        obtain ⟨p, hp, e⟩ := hc g hg
        exact ⟨p, List.mem_append_left _ hp, e⟩
      have new : ∃ p ∈ ins ++ [(x, f)], p.2 = f := ⟨(x, f), by simp, rfl⟩
      have push : t.f = s.f ++ [f] → ∀ g ∈ t.f, ∃ p ∈ ins ++ [(x, f)], p.2 = g := by
        intro e g hg
        rw [e] at hg
        rcases List.mem_append.mp hg with hg | hg
        · exact old g hg
        · rw [List.mem_singleton.mp hg]; exact new
      have set : ∀ i, t.f = s.f.set i f → ∀ g ∈ t.f, ∃ p ∈ ins ++ [(x, f)], p.2 = g := by
        intro i e g hg
        rw [e] at hg
        rcases List.mem_or_eq_of_mem_set hg with hg | hg
        · exact old g hg
        · rw [hg]; exact new
      cases o with
      | pushXF y g => cases hins; exact push heff.2.2
      | setXF i y g => cases hins; exact set i heff.2.2.2
      | pushX y u =>
        cases u with
        | error e => exact absurd heff (by simp [Effect])
        | ok g => cases hins; exact push heff.2.2
      | setX i y u =>
        cases u with
        | error e => exact absurd heff (by simp [Effect])
        | ok g => cases hins; exact set i heff.2.2.2
    · simp only [history, hr] at h
      exact ih t ins hI (by rw [hu.f]; exact hc) s' ins' h

/-- C18 (unconstrained), `_partial`: without migration (individuals only changed through push_back, set_x and
set_xf) no current individual is better than the champion. -/
theorem C18_unconstrained_partial (sq : Fl K → Fl K) (P : Info) (hnx : 0 < P.nx) (hnobj : P.nobj = 1)
    (hnc : P.nc = 0) (hst : P.stochastic = false) (rng : Nat → Nat) (faults : List Bool) (ops : List (Op K))
    (s : State K) (ins : List (List (Fl K) × List (Fl K)))
    (hs : history sq P ops (Pop.empty [] rng faults) [] = some (s, ins)) :
    ∀ f ∈ s.f, ¬ Lower f s.chF := by
  intro f hf
  obtain ⟨p, hp, rfl⟩ := current_inserted (sq := sq) hnx (by omega) ops _ []
    (inv_empty (by simp [hnc]) rng faults) (by simp [Pop.empty]) s ins hs f hf
  rcases (C16_unconstrained sq P hnx hnobj hnc hst rng faults ops s ins hs).2.2 with h | h
  · rw [h.1] at hp; exact absurd hp (by simp)
  · exact h.2 p hp

end generic

/-- C18 (constrained), `_partial`: as above for constrained problems. -/
theorem C18_constrained_partial (P : Info) (hnx : 0 < P.nx) (hnobj : P.nobj = 1) (hnc : 0 < P.nc)
    (hst : P.stochastic = false) (tol : List (Fl ℝ)) (htol : tol.length = P.nc) (rng : Nat → Nat)
    (faults : List Bool) (ops : List (Op ℝ)) (s : State ℝ) (ins : List (List (Fl ℝ) × List (Fl ℝ)))
    (hs : history Fl.sqrtR P ops (Pop.empty tol rng faults) [] = some (s, ins)) :
    ∀ f ∈ s.f, ¬ FcBetter P.nec tol f s.chF := by
  intro f hf
  obtain ⟨p, hp, rfl⟩ := current_inserted (sq := Fl.sqrtR) hnx (by omega) ops _ []
    (inv_empty htol rng faults) (by simp [Pop.empty]) s ins hs f hf
  rcases (C16_constrained P hnx hnobj hnc hst tol htol rng faults ops s ins hs).2.2 with h | h
  · rw [h.1] at hp; exact absurd hp (by simp)
  · exact h.2 p hp

/-- the hypotheses are met by a population with three insertions -/
example : ∃ s ins, history Fl.sqrtR P2
      [.pushXF [.fin 1] [.fin 1, .fin 2], .setXF 0 [.fin 2] [.fin 5, .fin 0], .pushXF [.fin 3] [.fin 0, .fin 7]]
      (Pop.empty [.fin 0] (fun n => n) [false]) [] = some (s, ins) ∧ WellFormed P2 s :=
  C15_wellformed Fl.sqrtR P2 (by decide) (by decide) [.fin 0] rfl _ _ _

end Verif.Props
