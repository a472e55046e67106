import Verif.Model.Problem
import Verif.Base.Check

/-!
# C20: evaluation counters
-/

set_option autoImplicit false

namespace Verif.Props

open Verif Prob

/-! ## C20 -/

section c20
variable {K : Type} [Field K] [LinearOrder K]

/-- Number of fitness evaluations a call stands for if it returns. -/
def fitnessEvals (p : Problem K) : Call K → Nat
  | .fitness _ _ => 1
  | .batchFitness dvs _ => dvs.length / p.nx
  | .bfe dvs _ => dvs.length / p.nx
  | .gradient _ _ => 0
  | .hessians _ _ => 0

/-- Number of gradient evaluations. -/
def gradientEvals : Call K → Nat
  | .gradient _ _ => 1
  | _ => 0

/-- Number of hessians evaluations. -/
def hessiansEvals : Call K → Nat
  | .hessians _ _ => 1
  | _ => 0

/-- The call has good arguments and the user code returns something acceptable. -/
def Succeeds (p : Problem K) : Call K → Prop
  | .fitness dv user => dv.length = p.nx ∧ ∃ f, user = .ok f ∧ f.length = p.nf
  | .batchFitness dvs user => p.nx ∣ dvs.length ∧ ∃ f, user = .ok f ∧ f.length = dvs.length / p.nx * p.nf
  | .bfe dvs user => p.nx ∣ dvs.length ∧ ∃ f, user = .ok f ∧ f.length = dvs.length / p.nx * p.nf
  | .gradient dv user => dv.length = p.nx ∧ ∃ g, user = .ok g ∧ g.length = p.gsDim
  | .hessians dv user => dv.length = p.nx ∧ ∃ h, user = .ok h ∧ h.length = p.nf ∧ h.map List.length = p.hsDim

/-- Not a `batch_fitness()` call whose UDP returns normally with a result of the wrong size. -/
def Regular (p : Problem K) : Call K → Prop
  | .batchFitness dvs (.ok f) => p.nx ∣ dvs.length → f.length = dvs.length / p.nx * p.nf
  | _ => True

/-- weight of an action for each counter -/
def wF : Act → Nat
  | .addF n => n
  | _ => 0

def wG : Act → Nat
  | .addG => 1
  | _ => 0

def wH : Act → Nat
  | .addH => 1
  | _ => 0

def sumW (w : Act → Nat) (l : List Act) : Nat := (l.map w).sum

/-- what a thread has contributed to a counter -/
def credit (p : Problem K) (w : Act → Nat) (t : Thread K) : Nat :=
  (t.done.map (fun d => if d.2 = .ok () then sumW w (d.1.acts p) else 0)).sum +
  match t.cur with
  | none => 0
  | some (k, as) => sumW w (k.acts p) - sumW w as

/-- throwing actions come before counter updates -/
def Behaved (p : Problem K) (k : Call K) : Prop :=
  ∀ pre as o, k.acts p = pre ++ Act.local o :: as → (∀ o', Act.local o' ∈ pre → o' = .ok ()) → o ≠ .ok () →
    ∀ w : Act → Nat, (∀ o, w (.local o) = 0) → sumW w (k.acts p) = sumW w as

theorem checkOutput_ok {p : Problem K} {dvs fvs : List (Fl K)} (hnf : 0 < p.nf) :
    Chk (checkOutput p.nx p.nf dvs fvs) (fvs.length = dvs.length / p.nx * p.nf) := by
  unfold checkOutput
  refine Chk.congr (Chk.ite_throw (fun _ => Chk.ite_throw (fun _ => Chk.pass))) ?_
  simp only [ne_eq, not_not, and_true]
  constructor
  · rintro ⟨h1, h2⟩
    rw [← h2, Nat.div_mul_cancel (Nat.dvd_of_mod_eq_zero h1)]
  · intro h
    rw [h]
    exact ⟨Nat.mul_mod_left _ _, Nat.mul_div_cancel _ hnf⟩

theorem split3 {a b c : Act} {pre as : List Act} {x : Act} (h : [a, b, c] = pre ++ x :: as) :
    (pre = [] ∧ x = a ∧ as = [b, c]) ∨ (pre = [a] ∧ x = b ∧ as = [c]) ∨ (pre = [a, b] ∧ x = c ∧ as = []) := by
  rcases pre with _ | ⟨_, _ | ⟨_, _ | ⟨_, _⟩⟩⟩ <;> simp at h <;> simp [h]

theorem split4 {a b c d : Act} {pre as : List Act} {x : Act} (h : [a, b, c, d] = pre ++ x :: as) :
    (pre = [] ∧ x = a ∧ as = [b, c, d]) ∨ (pre = [a] ∧ x = b ∧ as = [c, d]) ∨
    (pre = [a, b] ∧ x = c ∧ as = [d]) ∨ (pre = [a, b, c] ∧ x = d ∧ as = []) := by
  rcases pre with _ | ⟨_, _ | ⟨_, _ | ⟨_, _ | ⟨_, _⟩⟩⟩⟩ <;> simp at h <;> simp [h]

omit [Field K] [LinearOrder K] in
theorem checkInput_ok {nx : Nat} {dvs : List (Fl K)} : checkInput nx dvs = .ok () ↔ nx ∣ dvs.length := by
  unfold checkInput
  rw [Nat.dvd_iff_mod_eq_zero]
  split <;> simp_all

theorem behaved {p : Problem K} (hnf : 0 < p.nf) {k : Call K} (hk : Regular p k) : Behaved p k := by
  intro pre as o hs hpre ho w hw
  cases k with
  | fitness dv user =>
    rcases split3 hs with ⟨_, _, rfl⟩ | ⟨_, _, rfl⟩ | ⟨_, h, _⟩
    · simp [sumW, Call.acts, hw]
    · simp [sumW, Call.acts, hw]
    · cases h
  | bfe dv user =>
    rcases split3 hs with ⟨_, _, rfl⟩ | ⟨_, _, rfl⟩ | ⟨_, h, _⟩
    · simp [sumW, Call.acts, hw]
    · simp [sumW, Call.acts, hw]
    · cases h
  | gradient dv user =>
    rcases split3 hs with ⟨_, _, rfl⟩ | ⟨_, _, rfl⟩ | ⟨_, h, _⟩
    · simp [sumW, Call.acts, hw]
    · simp [sumW, Call.acts, hw]
    · cases h
  | hessians dv user =>
    rcases split3 hs with ⟨_, _, rfl⟩ | ⟨_, _, rfl⟩ | ⟨_, h, _⟩
    · simp [sumW, Call.acts, hw]
    · simp [sumW, Call.acts, hw]
    · cases h
  | batchFitness dvs user =>
    rcases split4 hs with ⟨_, _, rfl⟩ | ⟨_, _, rfl⟩ | ⟨_, h, _⟩ | ⟨rfl, h, rfl⟩
    · simp [sumW, Call.acts, hw]
    · simp [sumW, Call.acts, hw]
    · cases h
    · exfalso
      apply ho
      simp only [Act.local.injEq] at h
      rw [h]
      have h1 := checkInput_ok.mp (hpre (checkInput p.nx dvs) (by simp))
      have h2 := hpre (ofUser user >>= fun _ => .ok ()) (by simp)
      cases user with
      | error e => simp [ofUser] at h2
      | ok f =>
        simp only [ofUser, Outcome.bind_ok]
        exact (checkOutput_ok hnf).ok_iff.mpr (hk h1)

omit [Field K] [LinearOrder K] in
theorem checkLen_ok {n : Nat} {v : List (Fl K)} : checkLen n v = .ok () ↔ v.length = n := by
  unfold checkLen; split <;> simp_all

theorem locals_ok {p : Problem K} (hnf : 0 < p.nf) (k : Call K) :
    (∀ o, Act.local o ∈ k.acts p → o = .ok ()) ↔ Succeeds p k := by
  cases k with
  | fitness dv user =>
    cases user <;> simp [Call.acts, Succeeds, ofUser, checkLen_ok]
  | gradient dv user =>
    cases user <;> simp [Call.acts, Succeeds, ofUser, checkLen_ok, checkGradientVector]
  | hessians dv user =>
    cases user with
    | error e => simp [Call.acts, Succeeds, ofUser, checkLen_ok]
    | ok h =>
      simp only [Call.acts, Succeeds, ofUser, Outcome.bind_ok, List.mem_cons, Act.local.injEq, reduceCtorEq,
        List.not_mem_nil, or_false, forall_eq_or_imp, forall_eq, checkLen_ok, checkHessiansVector,
        Except.ok.injEq, exists_eq_left']
      refine and_congr Iff.rfl ?_
      split
      · simp_all
      · split <;> simp_all
  | bfe dvs user =>
    cases user with
    | error e => simp [Call.acts, Succeeds, ofUser, checkInput_ok]
    | ok f => simp [Call.acts, Succeeds, ofUser, checkInput_ok, (checkOutput_ok hnf).ok_iff]
  | batchFitness dvs user =>
    cases user with
    | error e => simp [Call.acts, Succeeds, ofUser, checkInput_ok]
    | ok f => simp [Call.acts, Succeeds, ofUser, checkInput_ok, (checkOutput_ok hnf).ok_iff]

/-- Invariant of a thread. -/
structure TInv (p : Problem K) (t : Thread K) : Prop where
  todo : ∀ k ∈ t.todo, Regular p k
  cur : ∀ k as, t.cur = some (k, as) → Regular p k ∧ ∃ pre, k.acts p = pre ++ as ∧
    ∀ o, Act.local o ∈ pre → o = .ok ()
  done : ∀ d ∈ t.done, d.2 = .ok () ↔ Succeeds p d.1

theorem sumW_append (w : Act → Nat) (a b : List Act) : sumW w (a ++ b) = sumW w a + sumW w b := by
  simp [sumW]

theorem sumW_cons (w : Act → Nat) (a : Act) (b : List Act) : sumW w (a :: b) = w a + sumW w b := by
  simp [sumW]

/-- what one step adds to each counter -/
def stepW (w : Act → Nat) (t : Thread K) : Nat :=
  match t.cur with
  | some (_, a :: _) => w a
  | _ => 0

theorem step_counters (p : Problem K) (c : Counters) (t : Thread K) :
    (t.step p c).1.f ≡ c.f + stepW wF t [MOD 2 ^ 64] ∧ (t.step p c).1.g ≡ c.g + stepW wG t [MOD 2 ^ 64] ∧
    (t.step p c).1.h ≡ c.h + stepW wH t [MOD 2 ^ 64] := by
  unfold Thread.step stepW
  rcases t with ⟨_ | ⟨k, _ | ⟨(o | n | _ | _), as⟩⟩, todo, done⟩
  · cases todo <;> simp [Nat.ModEq]
  · simp [Nat.ModEq]
  · cases o <;> simp [Nat.ModEq, wF, wG, wH]
  · simp [Nat.ModEq, wF, wG, wH, w64]
  · simp [Nat.ModEq, wF, wG, wH, w64]
  · simp [Nat.ModEq, wF, wG, wH, w64]

theorem step_credit {p : Problem K} (hnf : 0 < p.nf) {c : Counters} {t : Thread K} (ht : TInv p t)
    (w : Act → Nat) (hw : ∀ o, w (.local o) = 0) :
    credit p w (t.step p c).2 = credit p w t + stepW w t := by
  rcases t with ⟨_ | ⟨k, as⟩, todo, done⟩
  · cases todo <;> simp [Thread.step, credit, stepW]
  · obtain ⟨hreg, pre, hpre, hok⟩ := ht.cur k as rfl
    have hsum : sumW w (k.acts p) = sumW w pre + sumW w as := by rw [hpre, sumW_append]
    rcases as with _ | ⟨(o | n | _ | _), as⟩
    · simp only [Thread.step, credit, stepW, List.map_append, List.map_cons, List.map_nil, List.sum_append,
        List.sum_cons, List.sum_nil, if_true]
      simp [sumW]
    · have hz := hw o
      rw [sumW_cons] at hsum
      cases o with
      | ok u =>
        simp only [Thread.step, credit, stepW, sumW_cons]
        omega
      | _ =>
        have hB := behaved hnf hreg pre as _ hpre hok (by simp) w hw
        simp only [Thread.step, credit, stepW, List.map_append, List.map_cons, List.map_nil, List.sum_append,
          List.sum_cons, List.sum_nil, sumW_cons, reduceCtorEq, if_false]
        omega
    all_goals
      rw [sumW_cons] at hsum
      simp only [Thread.step, credit, stepW, sumW_cons]
      omega

theorem step_inv {p : Problem K} (hnf : 0 < p.nf) {c : Counters} {t : Thread K} (ht : TInv p t) :
    TInv p (t.step p c).2 := by
  rcases t with ⟨_ | ⟨k, as⟩, todo, done⟩
  · cases todo with
    | nil => exact ht
    | cons k ks =>
      refine ⟨fun k' hk' => ht.todo k' (List.mem_cons_of_mem _ hk'), ?_, ht.done⟩
      intro k' as' h
      simp only [Thread.step, Option.some.injEq, Prod.mk.injEq] at h
      obtain ⟨rfl, rfl⟩ := h
      exact ⟨ht.todo k (List.mem_cons_self ..), [], rfl, by simp⟩
  · obtain ⟨hreg, pre, hpre, hok⟩ := ht.cur k as rfl
    rcases as with _ | ⟨a, as⟩
    · refine ⟨ht.todo, by simp [Thread.step], ?_⟩
      intro d hd
      simp only [Thread.step] at hd
      rcases List.mem_append.mp hd with hd | hd
      · exact ht.done d hd
      · rw [List.mem_singleton.mp hd]
        rw [List.append_nil] at hpre
        exact ⟨fun _ => (locals_ok hnf k).mp (hpre ▸ hok), fun _ => rfl⟩
    · have hstay : (∀ o, a = .local o → o = .ok ()) →
          TInv p ⟨some (k, as), todo, done⟩ := by
        intro ha
        refine ⟨ht.todo, ?_, ht.done⟩
        intro k' as' h
        simp only [Option.some.injEq, Prod.mk.injEq] at h
        obtain ⟨rfl, rfl⟩ := h
        refine ⟨hreg, pre ++ [a], by simp [hpre], ?_⟩
        intro o ho
        rcases List.mem_append.mp ho with ho | ho
        · exact hok o ho
        · exact ha o (List.mem_singleton.mp ho).symm
      have hthrow : ∀ o, a = .local o → o ≠ .ok () → TInv p ⟨none, todo, done ++ [(k, o)]⟩ := by
        intro o ha ho
        refine ⟨ht.todo, by simp, ?_⟩
        intro d hd
        rcases List.mem_append.mp hd with hd | hd
        · exact ht.done d hd
        · rw [List.mem_singleton.mp hd]
          refine ⟨fun h => absurd h ho, fun h => ?_⟩
          exact (locals_ok hnf k).mpr h o (by rw [hpre, ha]; simp)
      rcases a with o | n | _ | _
      · cases o with
        | ok u => exact hstay (by simp)
        | _ => exact hthrow _ rfl (by simp)
      all_goals exact hstay (by simp)

/-- A program: what each thread calls, in order. -/
def start (progs : List (List (Call K))) : List (Thread K) :=
  progs.map (fun l => { cur := none, todo := l, done := [] })

/-- the sum of a number over the successful calls of all threads -/
def total (n : Call K → Nat) (ts : List (Thread K)) : Nat :=
  (ts.map (fun t => (t.done.map (fun d => if d.2 = .ok () then n d.1 else 0)).sum)).sum

theorem sum_set (f : Thread K → Nat) (ts : List (Thread K)) :
    ∀ (i : Nat) (t t' : Thread K) (d : Nat), ts[i]? = some t → f t' = f t + d →
      ((ts.set i t').map f).sum = (ts.map f).sum + d := by
  induction ts with
  | nil => intro i t t' d h; simp at h
  | cons a l ih =>
    intro i t t' d h e
    cases i with
    | zero => simp at h; subst h; simp [e]; omega
    | succ j =>
      simp only [List.getElem?_cons_succ] at h
      simp only [List.set_cons_succ, List.map_cons, List.sum_cons, ih j t t' d h e]; omega

theorem run_spec {p : Problem K} (hnf : 0 < p.nf) (sched : List Nat) :
    ∀ (c : Counters) (ts : List (Thread K)), (∀ t ∈ ts, TInv p t) →
      (∀ t ∈ (runThreads p sched (c, ts)).2, TInv p t) ∧
      (runThreads p sched (c, ts)).1.f + (ts.map (credit p wF)).sum ≡
        c.f + ((runThreads p sched (c, ts)).2.map (credit p wF)).sum [MOD 2 ^ 64] ∧
      (runThreads p sched (c, ts)).1.g + (ts.map (credit p wG)).sum ≡
        c.g + ((runThreads p sched (c, ts)).2.map (credit p wG)).sum [MOD 2 ^ 64] ∧
      (runThreads p sched (c, ts)).1.h + (ts.map (credit p wH)).sum ≡
        c.h + ((runThreads p sched (c, ts)).2.map (credit p wH)).sum [MOD 2 ^ 64] := by
  induction sched with
  | nil => intro c ts h; exact ⟨h, rfl, rfl, rfl⟩
  | cons i is ih =>
    intro c ts h
    rw [runThreads]
    cases hi : ts[i]? with
    | none => exact ih c ts h
    | some t =>
      have ht := h t (List.mem_of_getElem? hi)
      dsimp only
      have h' : ∀ t' ∈ ts.set i (t.step p c).2, TInv p t' := by
        intro t' ht'
        rcases List.mem_or_eq_of_mem_set ht' with hm | hm
        · exact h t' hm
        · rw [hm]; exact step_inv hnf ht
      obtain ⟨i1, i2, i3, i4⟩ := ih (t.step p c).1 _ h'
      obtain ⟨s1, s2, s3⟩ := step_counters p c t
      have e1 := sum_set (credit p wF) ts i t (t.step p c).2 _ hi (step_credit hnf ht wF (by simp [wF]))
      have e2 := sum_set (credit p wG) ts i t (t.step p c).2 _ hi (step_credit hnf ht wG (by simp [wG]))
      have e3 := sum_set (credit p wH) ts i t (t.step p c).2 _ hi (step_credit hnf ht wH (by simp [wH]))
      have comb : ∀ {x a d y z u : Nat}, x + (a + d) ≡ y + z [MOD 2 ^ 64] → y ≡ u + d [MOD 2 ^ 64] →
          x + a ≡ u + z [MOD 2 ^ 64] := by
        intro x a d y z u h1 h2
        have := h1.trans (h2.add_right z)
        apply Nat.ModEq.add_right_cancel' d
        calc x + a + d = x + (a + d) := by ring
          _ ≡ u + d + z [MOD 2 ^ 64] := this
          _ = u + z + d := by ring
      exact ⟨i1, comb (e1 ▸ i2) s1, comb (e2 ▸ i3) s2, comb (e3 ▸ i4) s3⟩

theorem credit_quiet {p : Problem K} {t : Thread K} (h : t.cur = none) :
    credit p wF t = (t.done.map (fun d => if d.2 = .ok () then fitnessEvals p d.1 else 0)).sum ∧
    credit p wG t = (t.done.map (fun d => if d.2 = .ok () then gradientEvals d.1 else 0)).sum ∧
    credit p wH t = (t.done.map (fun d => if d.2 = .ok () then hessiansEvals d.1 else 0)).sum := by
  have e : ∀ k : Call K, sumW wF (k.acts p) = fitnessEvals p k ∧ sumW wG (k.acts p) = gradientEvals k ∧
      sumW wH (k.acts p) = hessiansEvals k := by
    intro k
    cases k <;> simp [sumW, Call.acts, wF, wG, wH, fitnessEvals, gradientEvals, hessiansEvals]
  simp only [credit, h, (e _).1, (e _).2.1, (e _).2.2, Nat.add_zero, and_self]

/-- C20, `_partial`: for every program of several threads sharing one problem object and every interleaving, as soon
as no call is in progress the counters have grown by exactly the evaluations of the calls that returned (modulo 2^64,
the width of the counters), and exactly the calls with acceptable arguments and results have returned.
Missing: `batch_fitness()` calls whose UDP returns a result of the wrong size (`Regular`), for which the claim is
false, see `C20_failed_batch_counts`. -/
theorem C20_counts_partial (p : Problem K) (hnf : 0 < p.nf) (progs : List (List (Call K)))
    (hreg : ∀ l ∈ progs, ∀ k ∈ l, Regular p k) (c0 : Counters) (sched : List Nat) (c : Counters)
    (ts : List (Thread K)) (hrun : runThreads p sched (c0, start progs) = (c, ts)) :
    (∀ t ∈ ts, ∀ d ∈ t.done, d.2 = .ok () ↔ Succeeds p d.1) ∧
    ((∀ t ∈ ts, t.cur = none) →
      c.f ≡ c0.f + total (fitnessEvals p) ts [MOD 2 ^ 64] ∧
      c.g ≡ c0.g + total gradientEvals ts [MOD 2 ^ 64] ∧
      c.h ≡ c0.h + total hessiansEvals ts [MOD 2 ^ 64]) := by
  have h0 : ∀ t ∈ start progs, TInv p t := by
    intro t ht
    obtain ⟨l, hl, rfl⟩ := List.mem_map.mp ht
    exact ⟨hreg l hl, by simp, by simp⟩
  obtain ⟨i1, i2, i3, i4⟩ := run_spec hnf sched c0 (start progs) h0
  rw [hrun] at i1 i2 i3 i4
  refine ⟨fun t ht => (i1 t ht).done, fun hq => ?_⟩
  have z : ∀ w, ((start progs).map (credit p w)).sum = 0 := by
    intro w
    rw [start, List.map_map]
    apply List.sum_eq_zero
    intro x hx
    obtain ⟨l, _, rfl⟩ := List.mem_map.mp hx
    simp [credit]
  rw [z, Nat.add_zero] at i2 i3 i4
  have e1 : ts.map (credit p wF) = ts.map (fun t => (t.done.map (fun d => if d.2 = .ok () then fitnessEvals p d.1
      else 0)).sum) := List.map_congr_left (fun t ht => (credit_quiet (hq t ht)).1)
  have e2 : ts.map (credit p wG) = ts.map (fun t => (t.done.map (fun d => if d.2 = .ok () then gradientEvals d.1
      else 0)).sum) := List.map_congr_left (fun t ht => (credit_quiet (p := p) (hq t ht)).2.1)
  have e3 : ts.map (credit p wH) = ts.map (fun t => (t.done.map (fun d => if d.2 = .ok () then hessiansEvals d.1
      else 0)).sum) := List.map_congr_left (fun t ht => (credit_quiet (p := p) (hq t ht)).2.2)
  rw [e1] at i2; rw [e2] at i3; rw [e3] at i4
  exact ⟨i2, i3, i4⟩

end c20

/-- one variable, one objective -/
def demoP : Problem ℚ := ⟨[.fin 0], [.fin 1], 0, 1, 0, 0, 1, [1], []⟩

/-- C20 is false for `batch_fitness()`: the call throws because the UDP returned too few values, and yet the
counter has moved. -/
theorem C20_failed_batch_counts :
    ∃ sched : List Nat,
      let r := runThreads demoP sched (⟨0, 0, 0⟩, start [[.batchFitness [.fin 1, .fin 2] (.ok [.fin 7])]])
      (r.2.map (fun t => t.done.map (fun d => d.2)) = [[.throws .invalidArgument]]) ∧ r.1.f = 2 := by
  refine ⟨[0, 0, 0, 0, 0, 0], ?_, ?_⟩ <;> decide +kernel

/-- two threads, interleaved, one failing call: three evaluations are counted -/
example :
    let r := runThreads demoP [0, 1, 0, 1, 1, 0, 0, 1, 1, 0, 0, 0, 0]
      (⟨0, 0, 0⟩, start [[.fitness [.fin 1] (.ok [.fin 3]), .fitness [.fin 1] (.error (.user 1))],
        [.bfe [.fin 1, .fin 2] (.ok [.fin 1, .fin 2])]])
    r.1 = ⟨3, 0, 0⟩ ∧ r.2.map (fun t => t.done.map (fun d => d.2)) =
      [[.ok (), .throws (.user 1)], [.ok ()]] := by
  constructor <;> decide +kernel

end Verif.Props
