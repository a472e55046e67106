import Verif.Model.RngDevice
import Mathlib.Data.List.Basic

/-!
# C43: the global generator of seeds
-/

set_option autoImplicit false

namespace Verif.Props

open Verif Rdev

variable {σ : Type}

/-- The sequential meaning of a sequence of calls: every `next` must have given the value the engine gives in its
current state; the state afterwards. -/
def replay (g : Engine σ) (st : σ) : List Rdev.Obs → Option σ
  | [] => some st
  | .got _ v :: l => if (g.next st).1 = v then replay g (g.next st).2 l else none
  | .seeded _ s :: l => replay g (g.seed s) l

/-- The first `k` outputs of the engine. -/
def outputs (g : Engine σ) (st : σ) : Nat → List Nat
  | 0 => []
  | k + 1 => (g.next st).1 :: outputs g (g.next st).2 k

/-- In the critical section? -/
def _root_.Verif.Rdev.Pc.inside : Rdev.Pc σ → Bool
  | .nextRead | .nextWrite _ | .nextUnlock _ | .seedWrite _ | .seedUnlock _ => true
  | _ => false

theorem replay_append (g : Engine σ) (st : σ) (a b : List Rdev.Obs) :
    replay g st (a ++ b) = (replay g st a).bind (fun st => replay g st b) := by
  induction a generalizing st with
  | nil => rfl
  | cons o a ih =>
    cases o with
    | got t v => simp only [List.cons_append, replay]; split <;> simp [ih]
    | seeded t s => simp only [List.cons_append, replay, ih]

/-- What is known when thread `th` is in the critical section: the engine is `rng`, the calls logged so far lead to
`st`. -/
def CritOk (g : Engine σ) (st rng : σ) : Rdev.Pc σ → Prop
  | .nextWrite x => rng = st ∧ x = st
  | .nextUnlock v => (g.next st).1 = v ∧ rng = (g.next st).2
  | .seedUnlock s => rng = g.seed s
  | _ => rng = st

structure RdevInv (g : Engine σ) (st0 : σ) (s : Rdev.State σ) : Prop where
  owner : ∀ (t : Nat) (th : Rdev.Thread σ), s.threads[t]? = some th → (th.pc.inside = true ↔ s.owner = some t)
  valid : ∀ t, s.owner = some t → t < s.threads.length
  seq : ∃ st, replay g st0 s.log = some st ∧
    (s.owner = none → s.rng = st) ∧ ∀ (t : Nat) (th : Rdev.Thread σ), s.owner = some t → s.threads[t]? = some th → CritOk g st s.rng th.pc

theorem rdev_init (g : Engine σ) (st : σ) (progs : List (List Rdev.Cl)) : RdevInv g st (Rdev.init st progs) := by
  refine ⟨?_, by simp [Rdev.init], st, rfl, fun _ => rfl, by simp [Rdev.init]⟩
  intro t th h
  simp only [Rdev.init, List.getElem?_map, Option.map_eq_some_iff] at h
  obtain ⟨p, -, rfl⟩ := h
  simp [Rdev.Pc.inside, Rdev.init]

/-- Moving inside (`b = true`) or outside the critical section without touching the mutex. -/
theorem owner_goto {g : Engine σ} {st0 : σ} {s : Rdev.State σ} (hi : RdevInv g st0 s) {t : Nat} {th : Rdev.Thread σ}
    (ht : s.threads[t]? = some th) {th' : Rdev.Thread σ} (h : th'.pc.inside = th.pc.inside) :
    ∀ (u : Nat) (x : Rdev.Thread σ), (s.threads.set t th')[u]? = some x → (x.pc.inside = true ↔ s.owner = some u) := by
  intro u x hx
  by_cases hu : t = u
  · subst hu
    rw [List.getElem?_set_self (List.getElem?_eq_some_iff.mp ht).1] at hx
    cases hx
    rw [h]; exact hi.owner t th ht
  · rw [List.getElem?_set_ne hu] at hx
    exact hi.owner u x hx

theorem rdev_step {g : Engine σ} {st0 : σ} {s s' : Rdev.State σ} (hi : RdevInv g st0 s) {t : Nat} (h : Rdev.step g s t = some s') :
    RdevInv g st0 s' := by
  unfold Rdev.step at h
  cases ht : s.threads[t]? with
  | none => rw [ht] at h; cases h
  | some th =>
    rw [ht] at h
    simp only at h
    have hlt := (List.getElem?_eq_some_iff.mp ht).1
    have hown := hi.owner t th ht
    obtain ⟨st, hrep, hnone, hcrit⟩ := hi.seq
    -- a step outside the critical section
    have outside : ∀ (prog : List Rdev.Cl) (pc : Rdev.Pc σ), pc.inside = false → th.pc.inside = false →
        RdevInv g st0 { s with threads := s.threads.set t ⟨pc, prog⟩ } := by
      intro prog pc hpc hth
      refine ⟨owner_goto hi ht (by rw [hpc, hth]), by simpa using hi.valid, st, hrep, hnone, ?_⟩
      intro u x hu hx
      by_cases htu : t = u
      · subst htu; rw [hown.mpr hu] at hth; cases hth
      · simp only [List.getElem?_set_ne htu] at hx; exact hcrit u x hu hx
    -- a step inside the critical section
    have insd : ∀ (pc : Rdev.Pc σ) (rng : σ), pc.inside = true → th.pc.inside = true → CritOk g st rng pc →
        RdevInv g st0 { s with rng := rng, threads := s.threads.set t ⟨pc, th.prog⟩ } := by
      intro pc rng hpc hth hc
      have ho := hown.mp hth
      refine ⟨owner_goto hi ht (by rw [hpc, hth]), by simpa using hi.valid, st, hrep, by simp [ho], ?_⟩
      intro u x hu hx
      simp only [ho] at hu
      cases hu
      simp only [List.getElem?_set_self hlt] at hx
      cases hx
      exact hc
    -- entering
    have enter : ∀ (pc : Rdev.Pc σ), pc.inside = true → s.owner = none → CritOk g st s.rng pc →
        RdevInv g st0 { s with owner := some t, threads := s.threads.set t ⟨pc, th.prog⟩ } := by
      intro pc hpc ho hc
      refine ⟨?_, by intro u hu; simp only at hu; cases hu; simpa using hlt, st, hrep, by simp, ?_⟩
      · intro u x hx
        simp only at hx ⊢
        by_cases htu : t = u
        · subst htu; rw [List.getElem?_set_self hlt] at hx; cases hx; simp [hpc]
        · rw [List.getElem?_set_ne htu] at hx
          have := hi.owner u x hx
          rw [this, ho]; simp [htu]
      · intro u x hu hx
        simp only at hu hx
        cases hu
        rw [List.getElem?_set_self hlt] at hx; cases hx
        exact hc
    -- leaving
    have leave : ∀ (o : Rdev.Obs), th.pc.inside = true → (replay g st [o] = some s.rng) →
        RdevInv g st0 { s with owner := none, log := s.log ++ [o], threads := s.threads.set t ⟨.out, th.prog⟩ } := by
      intro o hth hr
      have ho := hown.mp hth
      refine ⟨?_, by simp, s.rng, by rw [replay_append, hrep]; exact hr, fun _ => rfl, by simp⟩
      intro u x hx
      simp only at hx ⊢
      by_cases htu : t = u
      · subst htu; rw [List.getElem?_set_self hlt] at hx; cases hx; simp [Rdev.Pc.inside]
      · rw [List.getElem?_set_ne htu] at hx
        have := hi.owner u x hx
        rw [this, ho]; simp [htu]
    cases hpc : th.pc with
    | out =>
      rw [hpc] at h
      simp only at h
      cases hp : th.prog with
      | nil => rw [hp] at h; cases h
      | cons c p =>
        rw [hp] at h
        cases c <;> (simp only [Rdev.goto, Option.some.injEq] at h; subst h; exact outside _ _ rfl (by rw [hpc]; rfl))
    | nextLock =>
      rw [hpc] at h
      simp only [Rdev.goto] at h
      split at h
      · rename_i ho; cases h; exact enter _ rfl ho (hnone ho)
      · cases h
    | nextRead =>
      rw [hpc] at h
      simp only [Rdev.goto, Option.some.injEq] at h
      subst h
      have := hcrit t th (hown.mp (by rw [hpc]; rfl)) ht
      rw [hpc] at this
      exact insd _ s.rng rfl (by rw [hpc]; rfl) ⟨this, this⟩
    | nextWrite x =>
      rw [hpc] at h
      simp only [Rdev.goto, Option.some.injEq] at h
      subst h
      have := hcrit t th (hown.mp (by rw [hpc]; rfl)) ht
      rw [hpc] at this
      obtain ⟨h1, rfl⟩ := this
      exact insd _ _ rfl (by rw [hpc]; rfl) ⟨rfl, rfl⟩
    | nextUnlock v =>
      rw [hpc] at h
      simp only [Rdev.goto, Option.some.injEq] at h
      subst h
      have := hcrit t th (hown.mp (by rw [hpc]; rfl)) ht
      rw [hpc] at this
      obtain ⟨h1, h2⟩ := this
      exact leave _ (by rw [hpc]; rfl) (by simp only [replay]; rw [if_pos h1, h2])
    | seedLock v =>
      rw [hpc] at h
      simp only [Rdev.goto] at h
      split at h
      · rename_i ho; cases h; exact enter _ rfl ho (hnone ho)
      · cases h
    | seedWrite v =>
      rw [hpc] at h
      simp only [Rdev.goto, Option.some.injEq] at h
      subst h
      exact insd _ _ rfl (by rw [hpc]; rfl) rfl
    | seedUnlock v =>
      rw [hpc] at h
      simp only [Rdev.goto, Option.some.injEq] at h
      subst h
      have := hcrit t th (hown.mp (by rw [hpc]; rfl)) ht
      rw [hpc] at this
      exact leave _ (by rw [hpc]; rfl) (by simp only [replay]; rw [this])

theorem rdev_run {g : Engine σ} {st0 : σ} {s s' : Rdev.State σ} (hi : RdevInv g st0 s) {ts : List Nat} (h : Rdev.run g s ts = some s') :
    RdevInv g st0 s' := by
  induction ts generalizing s with
  | nil => simp only [Rdev.run, Option.some.injEq] at h; subst h; exact hi
  | cons t ts ih =>
    simp only [Rdev.run] at h
    split at h
    · cases h
    · rename_i s1 h1; exact ih (rdev_step hi h1) h

/-- **C43.** Whatever the schedule, the calls behave as if made one after the other in the order of their critical
sections. -/
theorem C43_linear (g : Engine σ) (st0 : σ) (progs : List (List Rdev.Cl)) (ts : List Nat) (s : Rdev.State σ)
    (h : Rdev.run g (Rdev.init st0 progs) ts = some s) : (replay g st0 s.log).isSome := by
  obtain ⟨st, hs, -⟩ := (rdev_run (rdev_init g st0 progs) h).seq
  rw [hs]; rfl

/-- The values handed out. -/
def handedOut (l : List Rdev.Obs) : List Nat := l.filterMap (fun o => match o with | .got _ v => some v | .seeded _ _ => none)

theorem replay_outputs (g : Engine σ) {st st' : σ} {l : List Rdev.Obs} (hno : ∀ t s, Rdev.Obs.seeded t s ∉ l)
    (h : replay g st l = some st') : handedOut l = outputs g st l.length := by
  induction l generalizing st with
  | nil => rfl
  | cons o l ih =>
    cases o with
    | seeded t s => exact absurd (List.mem_cons_self ..) (hno t s)
    | got t v =>
      simp only [replay] at h
      split at h
      · rename_i hv
        have hh : handedOut (.got t v :: l) = v :: handedOut l := rfl
        rw [hh, ih (fun t s hm => hno t s (List.mem_cons_of_mem _ hm)) h, List.length_cons, outputs, hv]
      · cases h

/-- **C43.** The values handed out by the `k` calls of `next` between a `set_seed(v)` and the following `set_seed` are,
in the order of the critical sections, the first `k` outputs of the engine seeded with `v`; every value went to the
thread that is logged with it. -/
theorem C43_seeded (g : Engine σ) (st0 : σ) (progs : List (List Rdev.Cl)) (ts : List Nat) (s : Rdev.State σ)
    (h : Rdev.run g (Rdev.init st0 progs) ts = some s) (a b c : List Rdev.Obs) (t v : Nat)
    (hl : s.log = a ++ .seeded t v :: (b ++ c)) (hno : ∀ t s, Rdev.Obs.seeded t s ∉ b) :
    handedOut b = outputs g (g.seed v) b.length := by
  have h1 := C43_linear g st0 progs ts s h
  rw [hl, replay_append] at h1
  cases h2 : replay g st0 a with
  | none => rw [h2] at h1; cases h1
  | some x =>
    rw [h2] at h1
    simp only [Option.bind_some, replay, replay_append] at h1
    cases h3 : replay g (g.seed v) b with
    | none => rw [h3] at h1; cases h1
    | some y => exact replay_outputs g hno h3

/-! ### Every call is accounted for -/

/-- Calls of thread `t` in the log. -/
def callsOf (t : Nat) (l : List Rdev.Obs) : List Rdev.Cl := l.filterMap (fun o => match o with
  | .got u _ => if u = t then some .next else none
  | .seeded u s => if u = t then some (.setSeed s) else none)

/-- The call a thread is in. -/
def currentCall : Rdev.Pc σ → List Rdev.Cl
  | .out => []
  | .nextLock | .nextRead | .nextWrite _ | .nextUnlock _ => [.next]
  | .seedLock v | .seedWrite v | .seedUnlock v => [.setSeed v]

theorem callsOf_append (t : Nat) (a b : List Rdev.Obs) : callsOf t (a ++ b) = callsOf t a ++ callsOf t b := by
  simp [callsOf, List.filterMap_append]

def CallsInv (progs : List (List Rdev.Cl)) (s : Rdev.State σ) : Prop :=
  s.threads.length = progs.length ∧ ∀ (t : Nat) (th : Rdev.Thread σ) (p : List Rdev.Cl), s.threads[t]? = some th → progs[t]? = some p →
    p = callsOf t s.log ++ currentCall th.pc ++ th.prog

theorem calls_step {g : Engine σ} {progs : List (List Rdev.Cl)} {s s' : Rdev.State σ} (hi : CallsInv progs s) {t : Nat}
    (h : Rdev.step g s t = some s') : CallsInv progs s' := by
  unfold Rdev.step at h
  cases ht : s.threads[t]? with
  | none => rw [ht] at h; cases h
  | some th =>
    rw [ht] at h
    simp only at h
    have hlt := (List.getElem?_eq_some_iff.mp ht).1
    have main : ∀ (th' : Rdev.Thread σ) (s' : Rdev.State σ), s'.threads = s.threads.set t th' → (∃ o, s'.log = s.log ++ o ∧
        (∀ u, u ≠ t → callsOf u o = []) ∧ callsOf t o ++ currentCall th'.pc ++ th'.prog = currentCall th.pc ++ th.prog) →
        CallsInv progs s' := by
      rintro th' s' hs' ⟨o, ho, hu, heq⟩
      refine ⟨by rw [hs', List.length_set]; exact hi.1, ?_⟩
      intro u x p hx hp
      rw [hs'] at hx
      rw [ho, callsOf_append]
      by_cases htu : t = u
      · subst htu
        rw [List.getElem?_set_self hlt] at hx; cases hx
        rw [hi.2 t th p ht hp, List.append_assoc, List.append_assoc, List.append_assoc, ← heq]
        simp [List.append_assoc]
      · rw [List.getElem?_set_ne htu] at hx
        rw [hu u (fun h => htu h.symm), List.append_nil]
        exact hi.2 u x p hx hp
    cases hpc : th.pc with
    | out =>
      rw [hpc] at h
      simp only at h
      cases hp : th.prog with
      | nil => rw [hp] at h; cases h
      | cons c p =>
        rw [hp] at h
        cases c <;> (simp only [Rdev.goto, Option.some.injEq] at h; subst h
                     exact main _ _ rfl ⟨[], by simp, by simp [callsOf], by simp [callsOf, currentCall, hpc, hp]⟩)
    | nextLock =>
      rw [hpc] at h
      simp only [Rdev.goto] at h
      split at h
      · cases h; exact main _ _ rfl ⟨[], by simp, by simp [callsOf], by simp [callsOf, currentCall, hpc]⟩
      · cases h
    | seedLock v =>
      rw [hpc] at h
      simp only [Rdev.goto] at h
      split at h
      · cases h; exact main _ _ rfl ⟨[], by simp, by simp [callsOf], by simp [callsOf, currentCall, hpc]⟩
      · cases h
    | nextRead =>
      rw [hpc] at h; simp only [Rdev.goto, Option.some.injEq] at h; subst h
      exact main _ _ rfl ⟨[], by simp, by simp [callsOf], by simp [callsOf, currentCall, hpc]⟩
    | nextWrite x =>
      rw [hpc] at h; simp only [Rdev.goto, Option.some.injEq] at h; subst h
      exact main _ _ rfl ⟨[], by simp, by simp [callsOf], by simp [callsOf, currentCall, hpc]⟩
    | seedWrite v =>
      rw [hpc] at h; simp only [Rdev.goto, Option.some.injEq] at h; subst h
      exact main _ _ rfl ⟨[], by simp, by simp [callsOf], by simp [callsOf, currentCall, hpc]⟩
    | nextUnlock v =>
      rw [hpc] at h; simp only [Rdev.goto, Option.some.injEq] at h; subst h
      exact main _ _ rfl ⟨[_], rfl, by intro u hu; simp [callsOf, Ne.symm hu], by simp [callsOf, currentCall, hpc]⟩
    | seedUnlock v =>
      rw [hpc] at h; simp only [Rdev.goto, Option.some.injEq] at h; subst h
      exact main _ _ rfl ⟨[_], rfl, by intro u hu; simp [callsOf, Ne.symm hu], by simp [callsOf, currentCall, hpc]⟩

/-- **C43.** The calls logged for a thread are its finished calls, in program order, each once. -/
theorem C43_each_once (g : Engine σ) (st0 : σ) (progs : List (List Rdev.Cl)) (ts : List Nat) (s : Rdev.State σ)
    (h : Rdev.run g (Rdev.init st0 progs) ts = some s) (t : Nat) (th : Rdev.Thread σ) (p : List Rdev.Cl)
    (ht : s.threads[t]? = some th) (hp : progs[t]? = some p) : p = callsOf t s.log ++ currentCall th.pc ++ th.prog := by
  have key : ∀ (ts : List Nat) (s s' : Rdev.State σ), CallsInv progs s → Rdev.run g s ts = some s' → CallsInv progs s' := by
    intro ts
    induction ts with
    | nil => intro s s' hi h; simp only [Rdev.run, Option.some.injEq] at h; subst h; exact hi
    | cons t ts ih =>
      intro s s' hi h
      simp only [Rdev.run] at h
      split at h
      · cases h
      · rename_i s1 h1; exact ih s1 s' (calls_step hi h1) h
  refine (key ts _ s ⟨by simp [Rdev.init], ?_⟩ h).2 t th p ht hp
  intro t th p ht hp
  simp only [Rdev.init, List.getElem?_map, hp, Option.map_some, Option.some.injEq] at ht
  subst ht
  simp [Rdev.init, callsOf, currentCall]

/-- **C43.** Nobody waits forever for the mutex: if some call is unfinished, some thread can move. -/
theorem C43_progress (g : Engine σ) (st0 : σ) (progs : List (List Rdev.Cl)) (ts : List Nat) (s : Rdev.State σ)
    (h : Rdev.run g (Rdev.init st0 progs) ts = some s) (t : Nat) (th : Rdev.Thread σ) (ht : s.threads[t]? = some th)
    (hw : currentCall th.pc ≠ [] ∨ th.prog ≠ []) : ∃ u, (Rdev.step g s u).isSome := by
  have hi := rdev_run (rdev_init g st0 progs) h
  cases ho : s.owner with
  | some u =>
    refine ⟨u, ?_⟩
    have hu := List.getElem?_eq_getElem (hi.valid u ho)
    have := (hi.owner u _ hu).mpr ho
    unfold Rdev.step
    rw [hu]
    simp only
    revert this
    cases (s.threads[u]'(hi.valid u ho)).pc <;> simp [Rdev.Pc.inside]
  | none =>
    refine ⟨t, ?_⟩
    unfold Rdev.step
    rw [ht]
    simp only [ho, if_true]
    cases hpc : th.pc with
    | out =>
      simp only
      cases hp : th.prog with
      | nil => rw [hpc, hp] at hw; simp [currentCall] at hw
      | cons c p => cases c <;> simp
    | _ => simp

/-- A counter as an engine. -/
def countEngine : Engine Nat := ⟨fun s => 100 * s, fun s => (s, s + 1)⟩

example : (Rdev.run countEngine (Rdev.init 0 [[.setSeed 1, .next], [.next, .next]])
    [1, 0, 0, 0, 0, 1, 1, 0, 1, 1, 1, 0, 0, 0, 0, 1, 1, 1, 1]).map (fun s => s.log) =
    some [.seeded 0 1, .got 1 100, .got 0 101, .got 1 102] := by
  decide +kernel

end Verif.Props
