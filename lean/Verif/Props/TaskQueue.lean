import Verif.Model.TaskQueue

/-!
# C37, C38, C39: the task queue
-/

set_option autoImplicit false

namespace Verif.Props

open Verif TQ

/-! ## What the log says -/

/-- tasks put in the queue, in order -/
def pushes (l : List Obs) : List Nat := l.filterMap (fun o => match o with | .push _ k => some k | _ => none)

/-- tasks put in the queue by client `i`, in order -/
def pushesBy (i : Nat) (l : List Obs) : List Nat :=
  l.filterMap (fun o => match o with | .push j k => if j = i then some k else none | _ => none)

/-- tasks that have run to the end, in order -/
def finishes (l : List Obs) : List Nat := l.filterMap (fun o => match o with | .finish k => some k | _ => none)

/-- beginnings (`true`) and ends (`false`) of tasks, in order -/
def runs (l : List Obs) : List (Bool × Nat) :=
  l.filterMap (fun o => match o with | .start k => some (true, k) | .finish k => some (false, k) | _ => none)

/-- tasks a program enqueues -/
def enqs (p : List Cl) : List Nat := p.filterMap (fun c => match c with | .enqueue k => some k | _ => none)

/-! ## Invariant -/

def wHolds : WPc → Bool
  | .pred | .sleep | .take | .flag _ | .unlock _ => true
  | _ => false

def cHolds : CPc → Bool
  | .enqPush _ | .enqUnlock | .waPred | .waSleep | .waReturn | .dStop | .dUnlock => true
  | _ => false

def cur : WPc → List Nat
  | .flag k | .unlock k | .start k | .running k => [k]
  | _ => []

def begun : WPc → List (Bool × Nat)
  | .running k => [(true, k)]
  | _ => []

def wRuns : WPc → Bool
  | .unlock _ | .start _ | .running _ | .store => true
  | _ => false

def curEnq : CPc → List Nat
  | .enqLock k | .enqPush k => [k]
  | _ => []

/-- a client at `waReturn` has just seen the queue drained -/
structure TqInv (progs : List (List Cl)) (s : State) : Prop where
  own : s.owner = some .worker ↔ wHolds s.worker = true
  ownc : ∀ (i : Nat) (c : Client), s.clients[i]? = some c → (s.owner = some (.client i) ↔ cHolds c.pc = true)
  seq : pushes s.log = finishes s.log ++ cur s.worker ++ s.tasks
  alt : runs s.log = (finishes s.log).flatMap (fun k => [(true, k), (false, k)]) ++ begun s.worker
  run : s.running = wRuns s.worker
  ret : ∀ (i : Nat) (c : Client), s.clients[i]? = some c → c.pc = .waReturn → s.running = false ∧ s.tasks = []
  stp : s.stop = true → ∃ i, Obs.stop i ∈ s.log
  ext : s.worker = .exited → ∃ l1 l2, s.log = l1 ++ l2 ∧ (∃ i, Obs.stop i ∈ l1) ∧ pushes l1 = finishes l1
  prog : ∀ (i : Nat) (c : Client) (p : List Cl), s.clients[i]? = some c → progs[i]? = some p →
    pushesBy i s.log ++ curEnq c.pc ++ enqs c.prog = enqs p
  len : s.clients.length = progs.length

/-- what is known about every entry of the log, given the entries before it -/
def LogOk (l1 : List Obs) : Obs → Prop
  | .waitRet _ => finishes l1 = pushes l1
  | .dtorRet _ => ∃ la lb, l1 = la ++ lb ∧ (∃ i, Obs.stop i ∈ la) ∧ pushes la = finishes la
  | _ => True

def LogAll (l : List Obs) : Prop := ∀ l1 e l2, l = l1 ++ e :: l2 → LogOk l1 e

theorem logAll_snoc {l : List Obs} {e : Obs} (h : LogAll l) (he : LogOk l e) : LogAll (l ++ [e]) := by
  intro l1 e' l2 heq
  rcases List.eq_nil_or_concat l2 with rfl | ⟨l2', x, rfl⟩
  · have := List.append_inj' heq rfl
    obtain ⟨rfl, h2⟩ := this
    cases h2; exact he
  · rw [List.concat_eq_append, ← List.cons_append, ← List.append_assoc] at heq
    have := (List.append_inj' heq rfl).1
    exact h l1 e' l2' this

theorem tq_wake_inv {progs : List (List Cl)} {s s' : State} {w : Who} (h : TqInv progs s) (hw : wake s w = some s') :
    TqInv progs s' ∧ s'.log = s.log := by
  obtain ⟨h1, h2, h3, h4, h5, h6, h7, h8, h9, h10⟩ := h
  cases w with
  | worker =>
    simp only [wake] at hw
    split at hw <;> simp at hw
    subst hw
    rename_i hb
    rw [hb] at h1 h3 h4 h5 h8
    exact ⟨⟨h1, h2, h3, h4, h5, h6, h7, by simp, h9, h10⟩, rfl⟩
  | client i =>
    simp only [wake] at hw
    split at hw <;> simp at hw
    rename_i c hc
    obtain ⟨hb, rfl⟩ := hw
    refine ⟨⟨h1, ?_, h3, h4, h5, ?_, h7, h8, ?_, by simpa using h10⟩, rfl⟩
    · intro j d hj
      rw [List.getElem?_set] at hj
      grind [cHolds]
    · intro j d hj
      rw [List.getElem?_set] at hj
      grind
    · intro j d p hj hp
      rw [List.getElem?_set] at hj
      grind [curEnq]

theorem tq_notify_inv {progs : List (List Cl)} {s s' : State} {w : Who} (h : TqInv progs s) (hw : notifyOne s w = some s') :
    TqInv progs s' ∧ s'.log = s.log := by
  unfold notifyOne at hw
  split at hw
  · exact tq_wake_inv h hw
  · simp at hw; subst hw; exact ⟨h, rfl⟩

theorem pushes_append (a b : List Obs) : pushes (a ++ b) = pushes a ++ pushes b := List.filterMap_append
theorem pushesBy_append (i : Nat) (a b : List Obs) : pushesBy i (a ++ b) = pushesBy i a ++ pushesBy i b :=
  List.filterMap_append
theorem finishes_append (a b : List Obs) : finishes (a ++ b) = finishes a ++ finishes b := List.filterMap_append
theorem runs_append (a b : List Obs) : runs (a ++ b) = runs a ++ runs b := List.filterMap_append

theorem tq_inv_init (progs : List (List Cl)) : TqInv progs (TQ.init progs) := by
  refine ⟨by simp [TQ.init, wHolds], ?_, rfl, rfl, rfl, ?_, by simp [TQ.init], by simp [TQ.init], ?_, by simp [TQ.init]⟩
  · intro i c h
    simp [TQ.init] at h
    obtain ⟨p, _, rfl⟩ := h
    simp [TQ.init, cHolds]
  · intro i c h
    simp [TQ.init] at h
    obtain ⟨p, _, rfl⟩ := h
    simp
  · intro i c p h hp
    simp [TQ.init] at h
    obtain ⟨p', h1, rfl⟩ := h
    simp [TQ.init, pushesBy, curEnq]
    rw [hp] at h1; cases h1; rfl

theorem tq_worker_inv {progs : List (List Cl)} {s s' : State} {t : Who} (h : TqInv progs s) (hl : LogAll s.log)
    (hs : workerStep s t = some s') : TqInv progs s' ∧ LogAll s'.log := by
  have h0 := h
  obtain ⟨h1, h2, h3, h4, h5, h6, h7, h8, h9, h10⟩ := h
  have hx : wHolds s.worker = true → ∀ (i : Nat) (c : Client), s.clients[i]? = some c → cHolds c.pc = false := by
    intro hw i c hc
    have := h2 i c hc
    have := h1.mpr hw
    grind
  unfold workerStep at hs
  split at hs
  case h_1 hw | h_5 hw =>
    split at hs <;> simp at hs
    subst hs
    rename_i ho
    rw [hw] at h1 h3 h4 h5
    refine ⟨⟨by simp [wHolds], ?_, h3, h4, h5, h6, h7, by simp, h9, h10⟩, hl⟩
    intro i c hc
    have := h2 i c hc
    rw [ho] at this
    simpa using this
  case h_2 hw =>
    rw [hw] at h1 h3 h4 h5
    split at hs <;> simp at hs <;> subst hs
    · exact ⟨⟨h1, h2, h3, h4, h5, h6, h7, by simp, h9, h10⟩, hl⟩
    · exact ⟨⟨h1, h2, h3, h4, h5, h6, h7, by simp, h9, h10⟩, hl⟩
  case h_3 hw =>
    simp at hs; subst hs
    rw [hw] at h1 h3 h4 h5 hx
    refine ⟨⟨by simp [wHolds], ?_, h3, h4, h5, h6, h7, by simp, h9, h10⟩, hl⟩
    intro i c hc
    simp [hx rfl i c hc]
  case h_4 => simp at hs
  case h_6 hw =>
    rw [hw] at h1 h3 h4 h5 hx
    split at hs
    · rename_i hc
      simp at hs hc; subst hs
      refine ⟨⟨by simp [wHolds], ?_, h3, h4, h5, h6, h7, ?_, h9, h10⟩, hl⟩
      · intro i c hc
        simp [hx rfl i c hc]
      · intro _
        refine ⟨s.log, [], by simp, h7 hc.1, ?_⟩
        rw [h3, hc.2]; simp [cur]
    · split at hs <;> simp at hs
      subst hs
      rename_i k ks ht
      refine ⟨⟨h1, h2, ?_, h4, h5, ?_, h7, by simp, h9, h10⟩, hl⟩
      · simp only
        rw [h3, ht]; simp [cur]
      · intro i c hc hp
        have := hx rfl i c hc
        rw [hp] at this; simp [cHolds] at this
  case h_7 k hw =>
    simp at hs; subst hs
    rw [hw] at h1 h3 h4 h5 hx
    refine ⟨⟨h1, h2, h3, h4, rfl, ?_, h7, by simp, h9, h10⟩, hl⟩
    intro i c hc hp
    have := hx rfl i c hc
    rw [hp] at this; simp [cHolds] at this
  case h_8 k hw =>
    simp at hs; subst hs
    rw [hw] at h1 h3 h4 h5 hx
    refine ⟨⟨by simp [wHolds], ?_, h3, h4, h5, h6, h7, by simp, h9, h10⟩, hl⟩
    intro i c hc
    simp [hx rfl i c hc]
  case h_9 k hw =>
    simp at hs; subst hs
    rw [hw] at h1 h3 h4 h5
    refine ⟨⟨h1, h2, ?_, ?_, h5, h6, ?_, by simp, ?_, h10⟩, logAll_snoc hl trivial⟩
    · simp only [pushes_append, finishes_append]
      simpa [pushes, finishes, cur] using h3
    · simp only [runs_append, finishes_append, h4]
      simp [runs, finishes, begun]
    · intro hst; obtain ⟨i, hi⟩ := h7 hst; exact ⟨i, by simp [hi]⟩
    · intro i c p hc hp
      simp only [pushesBy_append]
      simpa [pushesBy] using h9 i c p hc hp
  case h_10 k hw =>
    simp at hs; subst hs
    rw [hw] at h1 h3 h4 h5
    refine ⟨⟨h1, h2, ?_, ?_, h5, h6, ?_, by simp, ?_, h10⟩, logAll_snoc hl trivial⟩
    · simp only [pushes_append, finishes_append]
      rw [h3]
      simp [pushes, finishes, cur]
    · simp only [runs_append, finishes_append, h4]
      simp [runs, finishes, begun]
    · intro hst; obtain ⟨i, hi⟩ := h7 hst; exact ⟨i, by simp [hi]⟩
    · intro i c p hc hp
      simp only [pushesBy_append]
      simpa [pushesBy] using h9 i c p hc hp
  case h_11 hw =>
    simp at hs; subst hs
    rw [hw] at h1 h3 h4 h5
    refine ⟨⟨h1, h2, h3, h4, rfl, ?_, h7, by simp, h9, h10⟩, hl⟩
    intro i c hc hp
    exact ⟨rfl, (h6 i c hc hp).2⟩
  case h_12 hw =>
    rw [hw] at h1 h3 h4 h5
    have hi : TqInv progs { s with worker := .lock } := ⟨h1, h2, h3, h4, h5, h6, h7, by simp, h9, h10⟩
    obtain ⟨a, b⟩ := tq_notify_inv hi hs
    exact ⟨a, by rw [b]; exact hl⟩
  case h_13 => simp at hs

/-- a client moves, possibly locking or unlocking -/
theorem client_move {progs : List (List Cl)} {s : State} (h : TqInv progs s) {i : Nat} {c : Client}
    (hc : s.clients[i]? = some c) (c' : Client) (o : Option Who)
    (ho : (o = s.owner ∧ cHolds c'.pc = cHolds c.pc) ∨
      (s.owner = none ∧ o = some (.client i) ∧ cHolds c'.pc = true) ∨
      (cHolds c.pc = true ∧ o = none ∧ cHolds c'.pc = false))
    (hr : c'.pc = .waReturn → s.running = false ∧ s.tasks = [])
    (hp : curEnq c'.pc ++ enqs c'.prog = curEnq c.pc ++ enqs c.prog) :
    TqInv progs { s with owner := o, clients := s.clients.set i c' } := by
  obtain ⟨h1, h2, h3, h4, h5, h6, h7, h8, h9, h10⟩ := h
  have hi := h2 i c hc
  refine ⟨?_, ?_, h3, h4, h5, ?_, h7, h8, ?_, by simpa using h10⟩
  · simp only
    grind
  · intro j d hj
    have hj2 := h2 j
    simp only at hj ⊢
    rw [List.getElem?_set] at hj
    grind
  · intro j d hj
    have hj2 := h6 j
    simp only at hj ⊢
    rw [List.getElem?_set] at hj
    grind
  · intro j d p hj hpj
    have hj2 := h9 j
    simp only at hj ⊢
    rw [List.getElem?_set] at hj
    grind

/-- an entry in the log that is not about tasks -/
theorem log_neutral {progs : List (List Cl)} {s : State} (h : TqInv progs s) (e : Obs)
    (h1 : pushes [e] = []) (h2 : finishes [e] = []) (h3 : runs [e] = []) (h4 : ∀ i, pushesBy i [e] = []) :
    TqInv progs { s with log := s.log ++ [e] } := by
  obtain ⟨g1, g2, g3, g4, g5, g6, g7, g8, g9, g10⟩ := h
  refine ⟨g1, g2, ?_, ?_, g5, g6, ?_, ?_, ?_, g10⟩
  · simpa only [pushes_append, finishes_append, h1, h2, List.append_nil] using g3
  · simpa only [runs_append, finishes_append, h3, h2, List.append_nil] using g4
  · intro hst; obtain ⟨i, hi⟩ := g7 hst; exact ⟨i, by simp [hi]⟩
  · intro hw
    obtain ⟨l1, l2, e1, e2, e3⟩ := g8 hw
    exact ⟨l1, l2 ++ [e], by simp [e1], e2, e3⟩
  · intro i c p hc hp
    simpa only [pushesBy_append, h4, List.append_nil] using g9 i c p hc hp

theorem tq_client_inv {progs : List (List Cl)} {s s' : State} {i : Nat} {c : Client} {t : Who} (h : TqInv progs s)
    (hl : LogAll s.log) (hc : s.clients[i]? = some c) (hs : clientStep s i c t = some s') :
    TqInv progs s' ∧ LogAll s'.log := by
  unfold clientStep at hs
  simp only [goto] at hs
  split at hs
  case h_1 hpc =>
    split at hs <;> simp at hs
    · subst hs
      rename_i k p hp
      exact ⟨client_move h hc _ s.owner (Or.inl ⟨rfl, by simp [cHolds, hpc]⟩) (by simp)
        (by simp [curEnq, hpc, hp, enqs]), hl⟩
    · subst hs
      rename_i p hp
      have h' := log_neutral h (.waitCall i) rfl rfl rfl (fun _ => rfl)
      exact ⟨client_move h' hc _ s.owner (Or.inl ⟨rfl, by simp [cHolds, hpc]⟩) (by simp)
        (by simp [curEnq, hpc, hp, enqs]), logAll_snoc hl trivial⟩
    · subst hs
      rename_i p hp
      exact ⟨client_move h hc _ s.owner (Or.inl ⟨rfl, by simp [cHolds, hpc]⟩) (by simp)
        (by simp [curEnq, hpc, hp, enqs]), hl⟩
  case h_2 k hpc =>
    split at hs <;> simp at hs
    subst hs
    rename_i ho
    exact ⟨client_move h hc _ (some (.client i)) (Or.inr (Or.inl ⟨ho, rfl, rfl⟩)) (by simp)
      (by simp [curEnq, hpc]), hl⟩
  case h_3 k hpc =>
    simp at hs; subst hs
    have hown := (h.ownc i c hc).mpr (by simp [hpc, cHolds])
    have hmv := client_move h hc ⟨.enqUnlock, c.prog⟩ s.owner (Or.inl ⟨rfl, by simp [cHolds, hpc]⟩) (by simp)
    obtain ⟨g1, g2, g3, g4, g5, g6, g7, g8, g9, g10⟩ := h
    refine ⟨⟨g1, ?_, ?_, ?_, g5, ?_, ?_, ?_, ?_, by simpa using g10⟩, logAll_snoc hl trivial⟩
    · intro j d hj
      have hj2 := g2 j
      simp only at hj ⊢
      rw [List.getElem?_set] at hj
      grind [cHolds]
    · simp only [pushes_append, finishes_append, g3]
      simp [pushes, finishes]
    · simp only [runs_append, finishes_append, g4]
      simp [runs, finishes]
    · intro j d hj hjp
      have hj2 := g2 j
      simp only at hj ⊢
      rw [List.getElem?_set] at hj
      grind [cHolds]
    · intro hst; obtain ⟨i, hi⟩ := g7 hst; exact ⟨i, by simp [hi]⟩
    · intro hw
      obtain ⟨l1, l2, e1, e2, e3⟩ := g8 hw
      exact ⟨l1, l2 ++ [Obs.push i k], by simp [e1], e2, e3⟩
    · intro j d p hj hpj
      have hj2 := g9 j
      simp only [pushesBy_append] at hj ⊢
      rw [List.getElem?_set] at hj
      by_cases hij : i = j
      · subst hij
        have hlt : i < s.clients.length := by
          rw [List.getElem?_eq_some_iff] at hc; exact hc.1
        simp [hlt] at hj
        subst hj
        have := hj2 c p hc hpj
        rw [← this]
        simp [pushesBy, curEnq, hpc]
      · simp [hij] at hj
        rw [← hj2 d p hj hpj]
        simp [pushesBy, hij]
  case h_4 hpc =>
    simp at hs; subst hs
    exact ⟨client_move h hc _ none (Or.inr (Or.inr ⟨by simp [cHolds, hpc], rfl, rfl⟩)) (by simp)
      (by simp [curEnq, hpc]), hl⟩
  case h_5 hpc =>
    have h' := log_neutral h (.enqRet i) rfl rfl rfl (fun _ => rfl)
    have h'' := client_move h' hc ⟨.idle, c.prog⟩ s.owner (Or.inl ⟨rfl, by simp [cHolds, hpc]⟩) (by simp)
        (by simp [curEnq, hpc])
    obtain ⟨a, b⟩ := tq_notify_inv h'' hs
    exact ⟨a, by rw [b]; exact logAll_snoc hl trivial⟩
  case h_6 hpc | h_10 hpc | h_12 hpc =>
    split at hs <;> simp at hs
    subst hs
    rename_i ho
    exact ⟨client_move h hc _ (some (.client i)) (Or.inr (Or.inl ⟨ho, rfl, rfl⟩)) (by simp)
      (by simp [curEnq, hpc]), hl⟩
  case h_7 hpc =>
    split at hs <;> simp at hs <;> subst hs
    · rename_i hp
      exact ⟨client_move h hc _ s.owner (Or.inl ⟨rfl, by simp [cHolds, hpc]⟩) (fun _ => hp)
        (by simp [curEnq, hpc]), hl⟩
    · exact ⟨client_move h hc _ s.owner (Or.inl ⟨rfl, by simp [cHolds, hpc]⟩) (by simp)
        (by simp [curEnq, hpc]), hl⟩
  case h_8 hpc | h_14 hpc =>
    simp at hs; subst hs
    exact ⟨client_move h hc _ none (Or.inr (Or.inr ⟨by simp [cHolds, hpc], rfl, rfl⟩)) (by simp)
      (by simp [curEnq, hpc]), hl⟩
  case h_9 => simp at hs
  case h_11 hpc =>
    simp at hs; subst hs
    have h' := log_neutral h (.waitRet i) rfl rfl rfl (fun _ => rfl)
    refine ⟨client_move h' hc _ none (Or.inr (Or.inr ⟨by simp [cHolds, hpc], rfl, rfl⟩)) (by simp)
      (by simp [curEnq, hpc]), logAll_snoc hl ?_⟩
    have hown := (h.ownc i c hc).mpr (by simp [hpc, cHolds])
    have hret := h.ret i c hc hpc
    have hw : wHolds s.worker ≠ true := fun e => by
      have := h.own.mpr e
      rw [hown] at this; cases this
    have hrun := h.run
    have hcur : cur s.worker = [] := by
      rw [hret.1] at hrun
      cases hwk : s.worker <;> simp [hwk, cur, wRuns, wHolds] at hrun hw ⊢
    show finishes s.log = pushes s.log
    rw [h.seq, hcur, hret.2]; simp
  case h_13 hpc =>
    simp at hs; subst hs
    have h' := log_neutral h (.stop i) rfl rfl rfl (fun _ => rfl)
    have h'' := client_move h' hc ⟨.dUnlock, c.prog⟩ s.owner (Or.inl ⟨rfl, by simp [cHolds, hpc]⟩) (by simp)
        (by simp [curEnq, hpc])
    obtain ⟨g1, g2, g3, g4, g5, g6, g7, g8, g9, g10⟩ := h''
    exact ⟨⟨g1, g2, g3, g4, g5, g6, fun _ => ⟨i, by simp⟩, g8, g9, g10⟩, logAll_snoc hl trivial⟩
  case h_15 hpc =>
    have h'' := client_move h hc ⟨.dJoin, c.prog⟩ s.owner (Or.inl ⟨rfl, by simp [cHolds, hpc]⟩) (by simp)
        (by simp [curEnq, hpc])
    obtain ⟨a, b⟩ := tq_notify_inv h'' hs
    exact ⟨a, by rw [b]; exact hl⟩
  case h_16 hpc =>
    split at hs <;> simp at hs
    subst hs
    rename_i hw
    have h' := log_neutral h (.dtorRet i) rfl rfl rfl (fun _ => rfl)
    exact ⟨client_move h' hc _ s.owner (Or.inl ⟨rfl, by simp [cHolds, hpc]⟩) (by simp)
      (by simp [curEnq, hpc]), logAll_snoc hl (h.ext hw)⟩

theorem tq_step_inv {progs : List (List Cl)} {s s' : State} {e : Ev} (h : TqInv progs s) (hl : LogAll s.log)
    (hs : TQ.step s e = some s') : TqInv progs s' ∧ LogAll s'.log := by
  cases e with
  | run w t =>
    cases w with
    | worker => exact tq_worker_inv h hl hs
    | client i =>
      simp only [TQ.step] at hs
      split at hs
      · rename_i c hc
        exact tq_client_inv h hl hc hs
      · cases hs
  | spurious w =>
    obtain ⟨a, b⟩ := tq_wake_inv h hs
    exact ⟨a, by rw [b]; exact hl⟩

theorem tq_exec_inv {progs : List (List Cl)} {es : List Ev} : ∀ {s s' : State}, TqInv progs s → LogAll s.log →
    exec s es = some s' → TqInv progs s' ∧ LogAll s'.log := by
  induction es with
  | nil => intro s s' h hl he; simp [exec] at he; subst he; exact ⟨h, hl⟩
  | cons e es ih =>
    intro s s' h hl he
    simp only [exec] at he
    split at he
    · rename_i s1 h1
      obtain ⟨a, b⟩ := tq_step_inv h hl h1
      exact ih a b he
    · cases he

theorem tq_reach_inv {progs : List (List Cl)} {es : List Ev} {s : State} (h : exec (TQ.init progs) es = some s) :
    TqInv progs s ∧ LogAll s.log := by
  refine tq_exec_inv (tq_inv_init progs) ?_ h
  intro l1 e l2 he
  simp [TQ.init] at he

/-! ## C37 -/

/-- C37. For any clients and any interleaving (spurious wakeups included): the tasks that have run are the ones put in
the queue, in that order, as far as execution has got; at any time the queue holds the rest. Beginnings and ends of
tasks alternate, so no two tasks overlap and none runs twice. Every client's tasks were put in the queue in the order
of its calls. -/
theorem C37_tasks (progs : List (List Cl)) (es : List Ev) (s : State) (h : exec (TQ.init progs) es = some s) :
    (∃ now : List Nat, now.length ≤ 1 ∧ pushes s.log = finishes s.log ++ now ++ s.tasks ∧
      (runs s.log = (finishes s.log).flatMap (fun k => [(true, k), (false, k)]) ∨
       runs s.log = (finishes s.log).flatMap (fun k => [(true, k), (false, k)]) ++ now.map (fun k => (true, k)))) ∧
    (∀ (i : Nat) (p : List Cl), progs[i]? = some p → pushesBy i s.log <+: enqs p) := by
  obtain ⟨hi, _⟩ := tq_reach_inv h
  refine ⟨⟨cur s.worker, ?_, hi.seq, ?_⟩, ?_⟩
  · cases s.worker <;> simp [cur]
  · have := hi.alt
    cases hw : s.worker <;> simp [hw, begun, cur] at this ⊢ <;> simp [this]
  · intro i p hp
    have hlen := hi.len
    obtain ⟨c, hc⟩ : ∃ c, s.clients[i]? = some c := by
      have := (List.getElem?_eq_some_iff.mp hp).1
      exact ⟨s.clients[i], List.getElem?_eq_getElem (by omega)⟩
    exact ⟨_, by rw [← List.append_assoc]; exact hi.prog i c p hc hp⟩

/-- a client enqueues two tasks, another one task; some interleaving in which the first task has finished -/
def demoSchedule : List Ev :=
  let c0 := Ev.run (.client 0) .worker
  let c1 := Ev.run (.client 1) .worker
  let w := Ev.run .worker .worker
  [w, w, w, c0, c0, c0, c1, c0, c0, c1, c1] ++ [c1, w, w, w, w, w, w, w, w] ++ [c1, c0, w, c0, c0, c0, c0]

example : (exec (TQ.init [[.enqueue 5, .enqueue 6], [.enqueue 7]]) demoSchedule).map (fun s => s.log) =
    some [.push 0 5, .enqRet 0, .push 1 7, .start 5, .finish 5, .enqRet 1, .push 0 6, .enqRet 0] := by
  decide +kernel

/-! ## C38 -/

/-- C38 (`wait_all`). When `wait_all` returns to a client, the tasks put in the queue so far have all run to their end
(in order), whatever threads do and whoever wakes up spuriously. -/
theorem C38_wait_all (progs : List (List Cl)) (es : List Ev) (s : State) (h : exec (TQ.init progs) es = some s)
    (before after : List Obs) (i : Nat) (hlog : s.log = before ++ Obs.waitRet i :: after) :
    finishes before = pushes before :=
  (tq_reach_inv h).2 before (.waitRet i) after hlog

/-- C38 (destructor). When the destructor returns, there was a time after the stop flag was set when all tasks put in
the queue so far had run; in particular every task enqueued before the destructor was called has. -/
theorem C38_destructor (progs : List (List Cl)) (es : List Ev) (s : State) (h : exec (TQ.init progs) es = some s)
    (before after : List Obs) (i : Nat) (hlog : s.log = before ++ Obs.dtorRet i :: after) :
    ∃ la lb, before = la ++ lb ∧ (∃ j, Obs.stop j ∈ la) ∧ pushes la = finishes la :=
  (tq_reach_inv h).2 before (.dtorRet i) after hlog

/-- An execution in which `wait_all` blocks while the task is running, and returns. -/
def waitSchedule : List Ev :=
  let c := Ev.run (.client 0) .worker
  let w := Ev.run .worker (.client 0)
  [c, c, c, c, c, w, w, w, w, w, w] ++ [c, c, c, c] ++ [w, w, w] ++ [c, c, c]

example : (exec (TQ.init [[.enqueue 5, .waitAll]]) waitSchedule).map (fun s => s.log) =
    some [.push 0 5, .enqRet 0, .start 5, .waitCall 0, .finish 5, .waitRet 0] := by decide +kernel

example : (exec (TQ.init [[.enqueue 5, .destroy]])
    (List.replicate 10 (Ev.run (.client 0) .worker) ++ List.replicate 12 (Ev.run .worker .worker) ++
      [Ev.run (.client 0) .worker])).map (fun s => s.log) =
    some [.push 0 5, .enqRet 0, .stop 0, .start 5, .finish 5, .dtorRet 0] := by decide +kernel

/-! ## C39 -/

/-- No thread can move (other than by a spurious wakeup). -/
def Stuck (s : State) : Prop := ∀ w t, TQ.step s (.run w t) = none

/-- steps still possible, at most -/
def wCost : WPc → Nat
  | .lock | .woken => 4
  | .pred => 3
  | .sleep => 1
  | .blocked => 0
  | .take => 2
  | .flag _ => 17
  | .unlock _ => 16
  | .start _ => 15
  | .running _ => 14
  | .store => 13
  | .notify => 12
  | .exited => 0

def cCost : CPc → Nat
  | .idle => 0
  | .enqLock _ => 49
  | .enqPush _ => 48
  | .enqUnlock => 20
  | .enqNotify => 19
  | .waLock | .waWoken => 4
  | .waPred => 3
  | .waSleep => 1
  | .waReturn => 2
  | .waBlocked => 0
  | .dLock => 49
  | .dStop => 48
  | .dUnlock => 47
  | .dNotify => 46
  | .dJoin => 1

def clCost (c : Client) : Nat := cCost c.pc + 50 * c.prog.length

def csum (cs : List Client) : Nat := (cs.map clCost).sum

def cost (s : State) : Nat := wCost s.worker + csum s.clients + 20 * s.tasks.length

theorem csum_set {l : List Client} {i : Nat} {c : Client} (h : l[i]? = some c) (c' : Client) :
    csum (l.set i c') + clCost c = csum l + clCost c' := by
  unfold csum
  induction l generalizing i with
  | nil => simp at h
  | cons a l ih =>
    cases i with
    | zero => simp at h; subst h; simp only [List.set_cons_zero, List.map_cons, List.sum_cons]; omega
    | succ i =>
      simp at h; have := ih h
      simp only [List.set_cons_succ, List.map_cons, List.sum_cons]; omega

theorem notify_cost {s s' : State} {t : Who} (h : notifyOne s t = some s') : cost s' ≤ cost s + 4 := by
  unfold notifyOne at h
  split at h
  · cases t with
    | worker =>
      simp only [wake] at h
      split at h <;> simp at h
      subst h
      rename_i hb
      simp [cost, hb, wCost]
      omega
    | client i =>
      simp only [wake] at h
      split at h <;> simp at h
      rename_i c hc
      obtain ⟨hb, rfl⟩ := h
      have := csum_set hc ⟨.waWoken, c.prog⟩
      simp only [cost]
      simp only [clCost, hb, cCost] at this
      omega
  · simp at h; subst h; omega

theorem step_cost {s s' : State} {w t : Who} (h : TQ.step s (.run w t) = some s') : cost s' < cost s := by
  cases w with
  | worker =>
    simp only [TQ.step, workerStep] at h
    split at h
    case h_12 hw =>
      have := notify_cost h
      have h2 : cost { s with worker := WPc.lock } + 8 = cost s := by simp [cost, hw, wCost]; omega
      omega
    case h_6 hw =>
      split at h
      · simp at h; subst h; simp [cost, hw, wCost]
      · split at h <;> simp at h
        subst h
        rename_i k ks ht
        simp [cost, hw, wCost, ht]; omega
    all_goals
      rename_i hw
      first
      | (split at h <;> simp at h <;> subst h <;> simp [cost, hw, wCost]; done)
      | (simp at h; subst h; simp [cost, hw, wCost]; done)
      | (cases h; done)
  | client i =>
    simp only [TQ.step] at h
    split at h
    · rename_i c hc
      have key := fun c' => csum_set hc c'
      simp only [clientStep, goto] at h
      split at h
      case h_1 hpc =>
        split at h <;> simp at h <;> subst h
        all_goals
          rename_i p hp
          simp only [cost]
        · rename_i k
          have := key ⟨.enqLock k, p⟩
          simp [clCost, hpc, hp, cCost] at this
          omega
        · have := key ⟨.waLock, p⟩
          simp [clCost, hpc, hp, cCost] at this
          omega
        · have := key ⟨.dLock, p⟩
          simp [clCost, hpc, hp, cCost] at this
          omega
      case h_5 hpc =>
        have h1 := notify_cost h
        have := key ⟨.idle, c.prog⟩
        simp [clCost, hpc, cCost] at this
        simp only [cost] at h1 ⊢
        omega
      case h_15 hpc =>
        have h1 := notify_cost h
        have := key ⟨.dJoin, c.prog⟩
        simp [clCost, hpc, cCost] at this
        simp only [cost] at h1 ⊢
        omega
      case h_3 k hpc =>
        have := key ⟨.enqUnlock, c.prog⟩
        simp [clCost, hpc, cCost] at this
        simp at h; subst h
        simp [cost]
        omega
      case h_7 hpc =>
        have h1 := key ⟨.waReturn, c.prog⟩
        have h2 := key ⟨.waSleep, c.prog⟩
        simp [clCost, hpc, cCost] at h1 h2
        split at h <;> simp at h <;> subst h <;> simp only [cost] <;> omega
      case h_9 => cases h
      case h_2 k hpc =>
        have h1 := key ⟨.enqPush k, c.prog⟩
        simp [clCost, hpc, cCost] at h1
        split at h <;> simp at h
        subst h; simp only [cost]; omega
      case h_4 hpc =>
        have h1 := key ⟨.enqNotify, c.prog⟩
        simp [clCost, hpc, cCost] at h1
        simp at h
        subst h; simp only [cost]; omega
      case h_6 hpc | h_10 hpc =>
        have h1 := key ⟨.waPred, c.prog⟩
        simp [clCost, hpc, cCost] at h1
        split at h <;> simp at h
        subst h; simp only [cost]; omega
      case h_8 hpc =>
        have h1 := key ⟨.waBlocked, c.prog⟩
        simp [clCost, hpc, cCost] at h1
        simp at h
        subst h; simp only [cost]; omega
      case h_11 hpc =>
        have h1 := key ⟨.idle, c.prog⟩
        simp [clCost, hpc, cCost] at h1
        simp at h
        subst h; simp only [cost]; omega
      case h_12 hpc =>
        have h1 := key ⟨.dStop, c.prog⟩
        simp [clCost, hpc, cCost] at h1
        split at h <;> simp at h
        subst h; simp only [cost]; omega
      case h_13 hpc =>
        have h1 := key ⟨.dUnlock, c.prog⟩
        simp [clCost, hpc, cCost] at h1
        simp at h
        subst h; simp only [cost]; omega
      case h_14 hpc =>
        have h1 := key ⟨.dNotify, c.prog⟩
        simp [clCost, hpc, cCost] at h1
        simp at h
        subst h; simp only [cost]; omega
      case h_16 hpc =>
        have h1 := key ⟨.idle, c.prog⟩
        simp [clCost, hpc, cCost] at h1
        split at h <;> simp at h
        subst h; simp only [cost]; omega
    · cases h

/-- C39 (no livelock). Without spurious wakeups every execution comes to an end: its length is bounded by the programs
of the clients. -/
theorem C39_finite_partial (progs : List (List Cl)) (ws : List (Who × Who)) (s : State)
    (h : exec (TQ.init progs) (ws.map (fun x => .run x.1 x.2)) = some s) :
    ws.length ≤ 4 + 50 * (progs.map List.length).sum := by
  have gen : ∀ (ws : List (Who × Who)) (s0 s : State), exec s0 (ws.map (fun x => .run x.1 x.2)) = some s →
      ws.length ≤ cost s0 := by
    intro ws
    induction ws with
    | nil => intros; simp
    | cons a ws ih =>
      intro s0 s h
      simp only [List.map_cons, exec] at h
      split at h
      · rename_i s1 h1
        have := step_cost h1
        have := ih s1 s h
        simp only [List.length_cons]; omega
      · cases h
  have h0 := gen ws _ s h
  have : cost (TQ.init progs) = 4 + 50 * (progs.map List.length).sum := by
    simp only [cost, TQ.init, wCost, csum, List.map_map]
    simp only [List.length_nil, Nat.mul_zero, Nat.add_zero]
    congr 1
    clear h h0
    induction progs with
    | nil => rfl
    | cons p ps ih =>
      simp only [List.map_cons, List.sum_cons, ih]
      simp only [Function.comp, clCost, cCost]
      omega
  omega

/-- The worker notifies while a client has evaluated the predicate of `wait_all` and not yet blocked. -/
def raced (s : State) : Ev → Prop
  | .run .worker _ => s.worker = .notify ∧ ∃ c ∈ s.clients, c.pc = .waSleep
  | _ => False

/-- an execution in which that does not happen -/
def Calm : State → List Ev → Prop
  | _, [] => True
  | s, e :: es => ¬ raced s e ∧ ∀ s', TQ.step s e = some s' → Calm s' es

/-- a program that uses the queue and then possibly destroys it -/
def okProg (p : List Cl) : Prop := Cl.destroy ∉ p.dropLast

def inDtor : CPc → Bool
  | .dLock | .dStop | .dUnlock | .dNotify | .dJoin => true
  | _ => false

def afterStop : CPc → Bool
  | .dUnlock | .dNotify | .dJoin => true
  | _ => false

def busy : WPc → Bool
  | .flag _ | .unlock _ | .start _ | .running _ | .store | .notify => true
  | _ => false

/-- Invariant for one client. -/
structure Inv1 (s : State) (c : Client) : Prop where
  cl : s.clients = [c]
  own : s.owner = some .worker ↔ wHolds s.worker = true
  ownc : s.owner = some (.client 0) ↔ cHolds c.pc = true
  ownx : ∀ i, s.owner ≠ some (.client (i + 1))
  ok : okProg c.prog
  dtor : inDtor c.pc = true → c.prog = []
  stp : s.stop = true → afterStop c.pc = true ∨ (c.pc = .idle ∧ c.prog = [])
  stp' : afterStop c.pc = true → s.stop = true
  ext : s.worker = .exited → s.stop = true ∧ s.tasks = []
  take : s.worker = .take → s.stop = true ∨ s.tasks ≠ []
  run : s.running = wRuns s.worker
  /-- the worker goes to sleep with nothing to do -/
  slp : s.worker = .sleep → s.tasks = [] ∧ s.stop = false
  blk : s.worker = .blocked → (s.tasks = [] ∧ s.stop = false) ∨ c.pc = .enqUnlock ∨ c.pc = .enqNotify ∨
    c.pc = .dUnlock ∨ c.pc = .dNotify
  /-- a client sleeps only while the worker has something to do -/
  wt : c.pc = .waSleep ∨ c.pc = .waBlocked → busy s.worker = true ∨
    (s.tasks ≠ [] ∧ s.worker ≠ .blocked ∧ s.worker ≠ .exited)

theorem inv1_init (p : List Cl) (h : okProg p) : Inv1 (TQ.init [p]) ⟨.idle, p⟩ := by
  constructor <;> simp [TQ.init, wHolds, cHolds, inDtor, afterStop, wRuns, h]

set_option maxHeartbeats 2000000 in
theorem inv1_worker {s s' : State} {c : Client} {t : Who} (h : Inv1 s c) (hr : ¬ raced s (.run .worker t))
    (hs : workerStep s t = some s') : ∃ c', Inv1 s' c' := by
  obtain ⟨g0, g1, g2, g3, g4, g5, g6, g7, g8, g9, g10, g11, g12, g13⟩ := h
  unfold workerStep at hs
  split at hs
  case h_12 hw =>
    unfold notifyOne at hs
    split at hs
    · rename_i hb
      simp [anyBlocked, g0] at hb
      cases t with
      | worker => simp [wake] at hs
      | client i =>
        simp only [wake, g0] at hs
        cases i with
        | zero =>
          simp at hs
          obtain ⟨hb, rfl⟩ := hs
          refine ⟨⟨.waWoken, c.prog⟩, ?_⟩
          constructor <;> simp_all [wHolds, cHolds, inDtor, afterStop, wRuns]
        | succ i => simp at hs
    · rename_i hb
      simp [anyBlocked, g0] at hb
      simp at hs; subst hs
      simp [raced, hw, g0] at hr
      refine ⟨c, ?_⟩
      constructor <;> simp_all [wHolds, cHolds, inDtor, afterStop, wRuns]
  case h_6 hw =>
    split at hs
    · simp at hs; subst hs
      refine ⟨c, ?_⟩
      constructor <;> simp_all [wHolds, cHolds, inDtor, afterStop, wRuns, busy]
    · split at hs <;> simp at hs
      subst hs
      refine ⟨c, ?_⟩
      constructor <;> simp_all [wHolds, cHolds, inDtor, afterStop, wRuns, busy]
  all_goals
    rename_i hw
    first
    | (cases hs; done)
    | (split at hs <;> simp at hs <;> subst hs <;> refine ⟨c, ?_⟩ <;>
        constructor <;> simp_all [wHolds, cHolds, inDtor, afterStop, wRuns, busy]; done)
    | (simp at hs; subst hs; refine ⟨c, ?_⟩
       constructor <;> simp_all [wHolds, cHolds, inDtor, afterStop, wRuns, busy]; done)
    | skip

theorem okProg_tail {a : Cl} {p : List Cl} (h : okProg (a :: p)) : okProg p := by
  unfold okProg at *
  cases p with
  | nil => simp
  | cons b p => simp at h ⊢; exact h.2

theorem okProg_destroy {p : List Cl} (h : okProg (.destroy :: p)) : p = [] := by
  unfold okProg at h
  cases p with
  | nil => rfl
  | cons b p => simp at h

set_option maxHeartbeats 2000000 in
theorem inv1_client {s s' : State} {c : Client} {t : Who} (h : Inv1 s c)
    (hs : clientStep s 0 c t = some s') : ∃ c', Inv1 s' c' := by
  obtain ⟨g0, g1, g2, g3, g4, g5, g6, g7, g8, g9, g10, g11, g12, g13⟩ := h
  unfold clientStep at hs
  simp only [goto, g0, List.set_cons_zero] at hs
  split at hs
  case h_1 hpc =>
    split at hs <;> simp at hs <;> subst hs
    · rename_i k p hp
      have := okProg_tail (hp ▸ g4)
      refine ⟨⟨.enqLock k, p⟩, ?_⟩
      constructor <;> simp_all [cHolds, inDtor, afterStop]
    · rename_i p hp
      have := okProg_tail (hp ▸ g4)
      refine ⟨⟨.waLock, p⟩, ?_⟩
      constructor <;> simp_all [cHolds, inDtor, afterStop]
    · rename_i p hp
      have := okProg_tail (hp ▸ g4)
      have := okProg_destroy (hp ▸ g4)
      refine ⟨⟨.dLock, p⟩, ?_⟩
      constructor <;> simp_all [cHolds, inDtor, afterStop]
  case h_5 hpc =>
    unfold notifyOne at hs
    split at hs
    · rename_i hb
      simp [anyBlocked] at hb
      cases t with
      | worker =>
        simp [wake, hb] at hs; subst hs
        refine ⟨⟨.idle, c.prog⟩, ?_⟩
        constructor <;> simp_all [wHolds, wRuns, cHolds, inDtor, afterStop]
      | client i => cases i <;> simp [wake] at hs
    · rename_i hb
      simp [anyBlocked] at hb
      simp at hs; subst hs
      refine ⟨⟨.idle, c.prog⟩, ?_⟩
      constructor <;> simp_all [cHolds, inDtor, afterStop]
  case h_15 hpc =>
    unfold notifyOne at hs
    split at hs
    · rename_i hb
      simp [anyBlocked] at hb
      cases t with
      | worker =>
        simp [wake, hb] at hs; subst hs
        refine ⟨⟨.dJoin, c.prog⟩, ?_⟩
        constructor <;> simp_all [wHolds, wRuns, cHolds, inDtor, afterStop]
      | client i => cases i <;> simp [wake] at hs
    · rename_i hb
      simp [anyBlocked] at hb
      simp at hs; subst hs
      refine ⟨⟨.dJoin, c.prog⟩, ?_⟩
      constructor <;> simp_all [cHolds, inDtor, afterStop]
  case h_2 k hpc =>
    split at hs <;> simp at hs
    subst hs
    refine ⟨⟨.enqPush k, c.prog⟩, ?_⟩
    constructor <;> simp_all [cHolds, inDtor, afterStop]
  case h_3 k hpc =>
    simp at hs
    subst hs
    refine ⟨⟨.enqUnlock, c.prog⟩, ?_⟩
    constructor <;> simp_all [cHolds, inDtor, afterStop]
    all_goals (cases hw : s.worker <;> simp_all [wHolds])
  case h_4 hpc =>
    simp at hs
    subst hs
    refine ⟨⟨.enqNotify, c.prog⟩, ?_⟩
    constructor <;> simp_all [cHolds, inDtor, afterStop]
  case h_6 hpc | h_10 hpc =>
    split at hs <;> simp at hs
    subst hs
    refine ⟨⟨.waPred, c.prog⟩, ?_⟩
    constructor <;> simp_all [cHolds, inDtor, afterStop]
  case h_7 hpc =>
    split at hs <;> simp at hs <;> subst hs
    · refine ⟨⟨.waReturn, c.prog⟩, ?_⟩
      constructor <;> simp_all [cHolds, inDtor, afterStop]
    · refine ⟨⟨.waSleep, c.prog⟩, ?_⟩
      constructor <;> simp_all [cHolds, inDtor, afterStop]
      all_goals (cases hw : s.worker <;> simp_all [wHolds, wRuns, busy])
  case h_8 hpc =>
    simp at hs
    subst hs
    refine ⟨⟨.waBlocked, c.prog⟩, ?_⟩
    constructor <;> simp_all [cHolds, inDtor, afterStop]
  case h_9 => cases hs
  case h_11 hpc =>
    simp at hs
    subst hs
    refine ⟨⟨.idle, c.prog⟩, ?_⟩
    constructor <;> simp_all [cHolds, inDtor, afterStop]
  case h_12 hpc =>
    split at hs <;> simp at hs
    subst hs
    refine ⟨⟨.dStop, c.prog⟩, ?_⟩
    constructor <;> simp_all [cHolds, inDtor, afterStop]
  case h_13 hpc =>
    simp at hs
    subst hs
    refine ⟨⟨.dUnlock, c.prog⟩, ?_⟩
    constructor <;> simp_all [cHolds, inDtor, afterStop]
    all_goals (cases hw : s.worker <;> simp_all [wHolds])
  case h_14 hpc =>
    simp at hs
    subst hs
    refine ⟨⟨.dNotify, c.prog⟩, ?_⟩
    constructor <;> simp_all [cHolds, inDtor, afterStop]
  case h_16 hpc =>
    split at hs <;> simp at hs
    subst hs
    refine ⟨⟨.idle, c.prog⟩, ?_⟩
    constructor <;> simp_all [cHolds, inDtor, afterStop]

theorem inv1_step {s s' : State} {c : Client} {e : Ev} (h : Inv1 s c) (hr : ¬ raced s e)
    (hs : TQ.step s e = some s') : ∃ c', Inv1 s' c' := by
  cases e with
  | run w t =>
    cases w with
    | worker => exact inv1_worker h hr hs
    | client i =>
      simp only [TQ.step, h.cl] at hs
      cases i with
      | zero => simp at hs; exact inv1_client h hs
      | succ i => simp at hs
  | spurious w =>
    obtain ⟨g0, g1, g2, g3, g4, g5, g6, g7, g8, g9, g10, g11, g12, g13⟩ := h
    cases w with
    | worker =>
      simp [TQ.step, wake] at hs
      obtain ⟨hb, rfl⟩ := hs
      refine ⟨c, ?_⟩
      constructor <;> simp_all [wHolds, wRuns, busy]
    | client i =>
      cases i with
      | succ i => simp [TQ.step, wake, g0] at hs
      | zero =>
        simp [TQ.step, wake, g0] at hs
        obtain ⟨hb, rfl⟩ := hs
        refine ⟨⟨.waWoken, c.prog⟩, ?_⟩
        constructor <;> simp_all [cHolds, inDtor, afterStop]

theorem inv1_exec {es : List Ev} : ∀ {s s' : State} {c : Client}, Inv1 s c → Calm s es → exec s es = some s' →
    ∃ c', Inv1 s' c' := by
  induction es with
  | nil => intro s s' c h _ he; simp [exec] at he; subst he; exact ⟨c, h⟩
  | cons e es ih =>
    intro s s' c h hc he
    simp only [exec] at he
    split at he
    · rename_i s1 h1
      obtain ⟨c', h'⟩ := inv1_step h hc.1 h1
      exact ih h' (hc.2 _ h1) he
    · cases he

/-- only client threads push -/
def PushOk (s : State) : Prop := ∀ i k, Obs.push i k ∈ s.log → i < s.clients.length

theorem wake_push {s s' : State} {w : Who} (h : PushOk s) (hs : wake s w = some s') : PushOk s' := by
  cases w with
  | worker =>
    simp [wake] at hs
    obtain ⟨_, rfl⟩ := hs; exact h
  | client i =>
    simp only [wake] at hs
    split at hs <;> simp at hs
    obtain ⟨_, rfl⟩ := hs
    intro j k hj
    simpa using h j k hj

theorem notify_push {s s' : State} {w : Who} (h : PushOk s) (hs : notifyOne s w = some s') : PushOk s' := by
  unfold notifyOne at hs
  split at hs
  · exact wake_push h hs
  · simp at hs; subst hs; exact h

theorem step_push {s s' : State} {e : Ev} (h : PushOk s) (hs : TQ.step s e = some s') : PushOk s' := by
  cases e with
  | spurious w => exact wake_push h hs
  | run w t =>
    cases w with
    | worker =>
      simp only [TQ.step, workerStep] at hs
      split at hs
      case h_12 => exact notify_push (s := { s with worker := .lock }) h hs
      all_goals (try split at hs) <;> (try split at hs) <;> simp at hs <;> subst hs <;>
        (intro j k hj; simp at hj; exact h j k hj)
    | client i =>
      simp only [TQ.step] at hs
      split at hs
      · rename_i c hc
        have hi : i < s.clients.length := (List.getElem?_eq_some_iff.mp hc).1
        simp only [clientStep] at hs
        split at hs
        case h_5 =>
          refine notify_push ?_ hs
          intro j k hj
          simp [goto] at hj ⊢; exact h j k hj
        case h_15 =>
          refine notify_push ?_ hs
          intro j k hj
          simp [goto] at hj ⊢; exact h j k hj
        case h_3 =>
          simp at hs; subst hs
          intro j k hj
          simp [goto] at hj ⊢
          rcases hj with hj | ⟨rfl, _⟩
          · exact h j k hj
          · exact hi
        all_goals (try split at hs) <;> simp at hs <;> subst hs <;>
          (intro j k hj; simp [goto] at hj ⊢; exact h j k hj)
      · cases hs

theorem exec_push {es : List Ev} : ∀ {s s' : State}, PushOk s → exec s es = some s' → PushOk s' := by
  induction es with
  | nil => intro s s' h he; simp [exec] at he; subst he; exact h
  | cons e es ih =>
    intro s s' h he
    simp only [exec] at he
    split at he
    · rename_i s1 h1
      exact ih (step_push h h1) he
    · cases he

/-- C39, partial. One client (this is how islands use their queue), any program of calls that destroys the queue at most
at its end. When no thread can move any more, the program is over (every `wait_all`, and the destructor, has returned)
and every task enqueued has run, provided that the worker never notified in the window between a predicate evaluation of
`wait_all` and its blocking (`Calm`). With `C39_finite_partial`: every maximal execution without spurious wakeups ends
like this. What is missing is the case of a notification in that window, where the property is false:
`C39_lost_wakeup`. -/
theorem C39_terminates_partial (p : List Cl) (hp : okProg p) (es : List Ev) (s : State)
    (h : exec (TQ.init [p]) es = some s) (hc : Calm (TQ.init [p]) es) (hst : Stuck s) :
    s.clients = [⟨.idle, []⟩] ∧ finishes s.log = enqs p := by
  obtain ⟨c, hi⟩ := inv1_exec (inv1_init p hp) hc h
  obtain ⟨hI, _⟩ := tq_reach_inv h
  obtain ⟨g0, g1, g2, g3, g4, g5, g6, g7, g8, g9, g10, g11, g12, g13⟩ := hi
  have hw := hst .worker .worker
  have hwc := hst .worker (.client 0)
  have hcl := hst (.client 0) .worker
  simp only [TQ.step, g0, List.getElem?_cons_zero] at hw hcl hwc
  have hown : s.owner = none := by
    cases ho : s.owner with
    | none => rfl
    | some w =>
      cases w with
      | worker =>
        have := g1.mp ho
        cases hwk : s.worker <;> simp [hwk, wHolds, workerStep] at this hw
        · split at hw <;> cases hw
        · have h9 := g9 hwk
          grind
      | client i =>
        cases i with
        | succ i => exact absurd ho (g3 i)
        | zero =>
          have := g2.mp ho
          cases hpc : c.pc <;> simp [hpc, cHolds, clientStep] at this hcl
          split at hcl <;> cases hcl
  have hwk : s.worker = .blocked ∨ s.worker = .exited := by
    cases hwk : s.worker <;> simp [hwk, wHolds, workerStep, hown] at hw g1 ⊢
    simp [workerStep, hwk, notifyOne, anyBlocked, g0] at hw hwc
    split at hw
    · rename_i hb
      simp [hb, wake] at hwc
    · cases hw
  have hcpc : c = ⟨.idle, []⟩ := by
    obtain ⟨pc, prog⟩ := c
    cases hpc : pc <;> simp [hpc, cHolds, clientStep, hown] at hcl g2 ⊢
    · split at hcl <;> simp_all
    · unfold notifyOne at hcl
      split at hcl
      · rename_i hb
        simp [anyBlocked, goto, g0] at hb
        simp [wake, goto, hb] at hcl
      · cases hcl
    · simp [hpc] at g13
      rcases hwk with e | e <;> simp [e, busy] at g13
    · unfold notifyOne at hcl
      split at hcl
      · rename_i hb
        simp [anyBlocked, goto, g0] at hb
        simp [wake, goto, hb] at hcl
      · cases hcl
    · simp [hpc, afterStop] at g7 g12
      rcases hwk with e | e
      · have := g12 e
        simp_all
      · exact hcl e
  refine ⟨by rw [g0, hcpc], ?_⟩
  have htasks : s.tasks = [] := by
    rcases hwk with e | e
    · have := g12 e
      simp [hcpc] at this
      exact this.1
    · exact (g8 e).2
  have hcur : cur s.worker = [] := by rcases hwk with e | e <;> simp [e, cur]
  have h1 := hI.seq
  rw [hcur, htasks] at h1
  have h2 := hI.prog 0 c p (by simp [g0]) (by simp)
  have h3 : ∀ l : List Obs, (∀ i k, Obs.push i k ∈ l → i = 0) → pushesBy 0 l = pushes l := by
    intro l hl
    induction l with
    | nil => rfl
    | cons o l ih =>
      have := ih (fun i k h => hl i k (List.mem_cons_of_mem _ h))
      cases o with
      | push i k =>
        have := hl i k (List.mem_cons_self ..)
        simp_all [pushesBy, pushes]
      | _ => simpa [pushesBy, pushes] using this
  have h4 : PushOk s := exec_push (s := TQ.init [p]) (by intro i k hk; simp [TQ.init] at hk) h
  have h5 := h3 s.log (fun i k hk => by have := h4 i k hk; simp [g0] at this; exact this)
  simp [hcpc, curEnq, enqs] at h2
  simp at h1
  rw [← h1, ← h5, h2]; rfl

/-- The schedule of a run that ends: the client waits for the running task, the worker wakes it up. -/
def calmSchedule : List Ev :=
  List.replicate 5 (Ev.run (.client 0) .worker) ++ List.replicate 7 (Ev.run .worker .worker) ++
  List.replicate 4 (Ev.run (.client 0) .worker) ++ List.replicate 2 (Ev.run .worker (.client 0)) ++
  List.replicate 3 (Ev.run (.client 0) .worker) ++ List.replicate 3 (Ev.run .worker .worker)

theorem stuck_of {s : State} (hw : s.worker = .blocked ∨ s.worker = .exited)
    (hc : ∀ c ∈ s.clients, c.pc = .waBlocked ∨ c = ⟨.idle, []⟩) : Stuck s := by
  intro w t
  cases w with
  | worker =>
    simp only [TQ.step, workerStep]
    rcases hw with h | h <;> rw [h]
  | client i =>
    simp only [TQ.step]
    split
    · rename_i c h
      rcases hc c (List.mem_of_getElem? h) with e | e
      · simp [clientStep, e]
      · simp [clientStep, e]
    · rfl

/-- computable form of `Calm` -/
def calmB : State → List Ev → Bool
  | _, [] => true
  | s, e :: es =>
    (match e with
      | .run .worker _ => !(s.worker == .notify && s.clients.any (fun c => c.pc == .waSleep))
      | _ => true) &&
    (match TQ.step s e with
      | some s' => calmB s' es
      | none => true)

theorem calm_of {es : List Ev} : ∀ {s : State}, calmB s es = true → Calm s es := by
  induction es with
  | nil => intros; trivial
  | cons e es ih =>
    intro s h
    simp only [calmB, Bool.and_eq_true] at h
    refine ⟨?_, ?_⟩
    · intro hr
      cases e with
      | run w t =>
        cases w with
        | worker => simp [raced] at hr h; grind
        | client i => exact hr
      | spurious w => exact hr
    · intro s' hs
      have := h.2
      rw [hs] at this
      exact ih this

/-- the state a calm execution ends in -/
def calmEnd : State :=
  { stop := false, running := false, tasks := [], owner := none, worker := .blocked, clients := [⟨.idle, []⟩],
    log := [.push 0 5, .enqRet 0, .start 5, .finish 5, .waitCall 0, .waitRet 0] }

example : exec (TQ.init [[.enqueue 5, .waitAll]]) calmSchedule = some calmEnd ∧ Stuck calmEnd ∧
    Calm (TQ.init [[.enqueue 5, .waitAll]]) calmSchedule ∧ okProg [.enqueue 5, .waitAll] :=
  ⟨by decide +kernel, stuck_of (Or.inl rfl) (by decide), calm_of (by decide +kernel), by unfold okProg; decide⟩

/-- The client reads `m_task_running == true`, the worker stores `false` and notifies, then the client blocks. -/
def lostSchedule : List Ev :=
  List.replicate 5 (Ev.run (.client 0) .worker) ++ List.replicate 7 (Ev.run .worker .worker) ++
  List.replicate 3 (Ev.run (.client 0) .worker) ++ List.replicate 2 (Ev.run .worker .worker) ++
  List.replicate 1 (Ev.run (.client 0) .worker) ++ List.replicate 3 (Ev.run .worker .worker)

/-- C39 is false of the code: with a single client that enqueues a task and waits, all tasks finish and `wait_all` never
returns. The flag is stored without holding the mutex, so the notification can fall between the evaluation of the
predicate and the blocking. -/
theorem C39_lost_wakeup : ∃ (es : List Ev) (s : State),
    exec (TQ.init [[.enqueue 0, .waitAll]]) es = some s ∧ Stuck s ∧
    s.log = [.push 0 0, .enqRet 0, .start 0, .finish 0, .waitCall 0] ∧ s.tasks = [] ∧ s.running = false :=
  ⟨lostSchedule,
    { stop := false, running := false, tasks := [], owner := none, worker := .blocked, clients := [⟨.waBlocked, []⟩],
      log := [.push 0 0, .enqRet 0, .start 0, .finish 0, .waitCall 0] },
    by decide +kernel, stuck_of (Or.inl rfl) (by decide), rfl, rfl, rfl⟩

/-- `wait_all` of a second thread sits between the push and the notification of `enqueue` and takes the wakeup. -/
def stolenSchedule : List Ev :=
  List.replicate 3 (Ev.run .worker .worker) ++ List.replicate 4 (Ev.run (.client 0) .worker) ++
  List.replicate 4 (Ev.run (.client 1) .worker) ++ List.replicate 1 (Ev.run (.client 0) (.client 1)) ++
  List.replicate 3 (Ev.run (.client 1) .worker)

/-- C39 is false of the code for two threads: a task that was enqueued never runs, because `notify_one` of `enqueue` woke
the thread in `wait_all` instead of the worker. -/
theorem C39_wrong_thread_woken : ∃ (es : List Ev) (s : State),
    exec (TQ.init [[.enqueue 0], [.waitAll]]) es = some s ∧ Stuck s ∧ Calm (TQ.init [[.enqueue 0], [.waitAll]]) es ∧
    s.log = [.push 0 0, .waitCall 1, .enqRet 0] ∧ s.tasks = [0] :=
  ⟨stolenSchedule,
    { stop := false, running := false, tasks := [0], owner := none, worker := .blocked,
      clients := [⟨.idle, []⟩, ⟨.waBlocked, []⟩], log := [.push 0 0, .waitCall 1, .enqRet 0] },
    by decide +kernel, stuck_of (Or.inl rfl) (by decide), calm_of (by decide +kernel), rfl, rfl⟩

/-- Two threads wait for a running task. -/
def twoWaiters : List Ev :=
  List.replicate 5 (Ev.run (.client 0) .worker) ++ List.replicate 7 (Ev.run .worker .worker) ++
  List.replicate 4 (Ev.run (.client 0) .worker) ++ List.replicate 4 (Ev.run (.client 1) .worker) ++
  List.replicate 2 (Ev.run .worker (.client 0)) ++ List.replicate 3 (Ev.run (.client 0) .worker) ++
  List.replicate 3 (Ev.run .worker .worker)

/-- C39 is false of the code for two waiting threads: the worker wakes only one of them. -/
theorem C39_second_waiter : ∃ (es : List Ev) (s : State),
    exec (TQ.init [[.enqueue 0, .waitAll], [.waitAll]]) es = some s ∧ Stuck s ∧
    Calm (TQ.init [[.enqueue 0, .waitAll], [.waitAll]]) es ∧
    s.log = [.push 0 0, .enqRet 0, .start 0, .finish 0, .waitCall 0, .waitCall 1, .waitRet 0] ∧ s.tasks = [] :=
  ⟨twoWaiters,
    { stop := false, running := false, tasks := [], owner := none, worker := .blocked,
      clients := [⟨.idle, []⟩, ⟨.waBlocked, []⟩],
      log := [.push 0 0, .enqRet 0, .start 0, .finish 0, .waitCall 0, .waitCall 1, .waitRet 0] },
    by decide +kernel, stuck_of (Or.inl rfl) (by decide), calm_of (by decide +kernel), rfl, rfl⟩

end Verif.Props
