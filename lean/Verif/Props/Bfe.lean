import Verif.Model.Bfe
import Verif.Props.Counters

/-!
# C21: batch evaluation with threads
-/

set_option autoImplicit false

namespace Verif.Props

open Verif Prob Bfe

variable {K : Type}

/-- The ranges the scheduler may choose: a partition of `[0, n)`. -/
structure Partition (n : Nat) (rs : List (Nat × Nat)) : Prop where
  le : ∀ r ∈ rs, r.1 ≤ r.2 ∧ r.2 ≤ n
  disjoint : rs.Pairwise (fun a b => ∀ i, ¬ (a.1 ≤ i ∧ i < a.2 ∧ b.1 ≤ i ∧ i < b.2))
  cover : ∀ i < n, ∃ r ∈ rs, r.1 ≤ i ∧ i < r.2

/-- the `i`-th decision vector of the batch -/
def dvAt (nx : Nat) (dvs : List (Fl K)) (i : Nat) : List (Fl K) := (dvs.drop (i * nx)).take nx

/-- what evaluating the `i`-th decision vector gives -/
def evalAt (p : P K) (dvs : List (Fl K)) (i : Nat) : Outcome (List (Fl K)) :=
  match p.user (dvAt p.nx dvs i) with
  | .error e => .throws e
  | .ok f => if f.length = p.nf then .ok f else .throws .invalidArgument

/-- expected fitness of the `i`-th decision vector, empty if there is none -/
def expect (p : P K) (dvs : List (Fl K)) (i : Nat) : List (Fl K) :=
  match evalAt p dvs i with
  | .ok f => f
  | _ => []

theorem fitness_eq (p : P K) {dvs : List (Fl K)} {i : Nat} (h : (i + 1) * p.nx ≤ dvs.length) :
    slice dvs (i * p.nx) p.nx = .ok (dvAt p.nx dvs i) ∧ p.fitness (dvAt p.nx dvs i) = evalAt p dvs i := by
  have e : i * p.nx + p.nx ≤ dvs.length := by rw [Nat.add_mul] at h; omega
  constructor
  · simp [slice, e, dvAt]
  · have hl : (dvAt p.nx dvs i).length = p.nx := by simp [dvAt]; omega
    unfold P.fitness evalAt
    rw [checkLen_ok.mpr hl]
    cases p.user (dvAt p.nx dvs i) with
    | error e => rfl
    | ok f =>
      simp only [Outcome.bind_ok, ofUser, checkLen]
      by_cases hf : f.length = p.nf
      · simp [hf]
      · simp [hf]

/-- expected value at position `q` of the result -/
def tgt (p : P K) (dvs : List (Fl K)) (q : Nat) : Option (Fl K) := (expect p dvs (q / p.nf))[q % p.nf]?

/-- Invariant of a task with range `r`. -/
structure BInv (p : P K) (dvs ret : List (Fl K)) (r : Nat × Nat) (t : Worker K) : Prop where
  fin : t.fin = r.2
  beg : r.1 ≤ t.beg ∧ t.beg ≤ r.2
  pendLen : t.pend.length ≤ p.nf
  started : t.pend ≠ [] → r.1 < t.beg ∧ t.pos + t.pend.length = t.beg * p.nf
  good : ∀ i, r.1 ≤ i → i < t.beg → evalAt p dvs i = .ok (expect p dvs i)
  pend : ∀ j, j < t.pend.length → t.pend[j]? = tgt p dvs (t.pos + j)
  written : ∀ q, r.1 * p.nf ≤ q → q < t.beg * p.nf - t.pend.length → ret[q]? = tgt p dvs q

theorem binv_frame {p : P K} {dvs ret ret' : List (Fl K)} {r : Nat × Nat} {t : Worker K} (h : BInv p dvs ret r t)
    (hf : ∀ q, r.1 * p.nf ≤ q → q < r.2 * p.nf → ret'[q]? = ret[q]?) : BInv p dvs ret' r t := by
  refine ⟨h.fin, h.beg, h.pendLen, h.started, h.good, h.pend, ?_⟩
  intro q h1 h2
  rw [hf q h1, h.written q h1 h2]
  have : t.beg * p.nf ≤ r.2 * p.nf := Nat.mul_le_mul_right _ h.beg.2
  omega

theorem evalAt_len {p : P K} {dvs : List (Fl K)} {i : Nat} {f : List (Fl K)} (h : evalAt p dvs i = .ok f) :
    f.length = p.nf ∧ expect p dvs i = f := by
  refine ⟨?_, by simp [expect, h]⟩
  unfold evalAt at h
  split at h
  · cases h
  · split at h
    · cases h; assumption
    · cases h

/-- work left -/
def work (p : P K) (t : Worker K) : Nat := (t.fin - t.beg) * (p.nf + 1) + t.pend.length

theorem bstep {p : P K} (hnf : 0 < p.nf) {dvs ret : List (Fl K)} {n : Nat} (hd : dvs.length = n * p.nx)
    (hr : ret.length = n * p.nf) {r : Nat × Nat} (hr2 : r.2 ≤ n) {t : Worker K} (h : BInv p dvs ret r t) :
    (∃ ret' t', t.step p dvs ret = .ok (ret', t') ∧ ret'.length = n * p.nf ∧ BInv p dvs ret' r t' ∧
      work p t' = work p t - 1 ∧
      ∀ q, ¬ (r.1 * p.nf ≤ q ∧ q < r.2 * p.nf) → ret'[q]? = ret[q]?) ∨
    (∃ e i, t.step p dvs ret = .throws e ∧ r.1 ≤ i ∧ i < r.2 ∧ evalAt p dvs i = .throws e) := by
  rcases ht : t.pend with _ | ⟨v, vs⟩
  · by_cases hb : t.beg = t.fin
    · refine Or.inl ⟨ret, t, by simp [Worker.step, ht, hb], hr, h, ?_, fun _ _ => rfl⟩
      simp [work, hb, ht]
    · have hlt : t.beg < r.2 := by have := h.beg; have := h.fin; omega
      have hle : (t.beg + 1) * p.nx ≤ dvs.length := by
        rw [hd]; exact Nat.mul_le_mul_right _ (by omega)
      obtain ⟨e1, e2⟩ := fitness_eq p hle
      have hstep : t.step p dvs ret = (evalAt p dvs t.beg >>= fun fv =>
          .ok (ret, { t with beg := t.beg + 1, pos := t.beg * p.nf, pend := fv })) := by
        rw [Worker.step, ht]
        simp only [if_neg hb, e1, Outcome.bind_ok, e2]
      rcases he : evalAt p dvs t.beg with f | e | _ | _
      · left
        obtain ⟨hl, hx⟩ := evalAt_len he
        refine ⟨ret, _, by rw [hstep, he]; rfl, hr, ?_, ?_, fun _ _ => rfl⟩
        · have hm : (t.beg + 1) * p.nf = t.beg * p.nf + p.nf := by ring
          refine ⟨h.fin, ⟨by have := h.beg; show r.1 ≤ t.beg + 1; omega, hlt⟩, by simp [hl], ?_, ?_, ?_, ?_⟩
          · intro _
            exact ⟨by have := h.beg; show r.1 < t.beg + 1; omega, by simp only [hl]; omega⟩
          · intro i h1 h2
            rcases Nat.lt_or_ge i t.beg with h3 | h3
            · exact h.good i h1 h3
            · have : i = t.beg := by have : i < t.beg + 1 := h2; omega
              subst this; rw [he, hx]
          · intro j hj
            have hj' : j < p.nf := by rw [← hl]; exact hj
            show f[j]? = tgt p dvs (t.beg * p.nf + j)
            unfold tgt
            rw [Nat.mul_comm, Nat.mul_add_div hnf, Nat.div_eq_of_lt hj', Nat.add_zero, Nat.mul_add_mod,
              Nat.mod_eq_of_lt hj', hx]
          · intro q h1 h2
            apply h.written q h1
            rw [ht]
            have h2 : q < (t.beg + 1) * p.nf - f.length := h2
            rw [hm, hl] at h2
            simpa using h2
        · simp only [work, ht, hl, List.length_nil]
          obtain ⟨d, hd'⟩ : ∃ d, t.fin = t.beg + 1 + d := ⟨t.fin - (t.beg + 1), by have := h.fin; omega⟩
          have e1 : t.fin - t.beg = d + 1 := by omega
          have e2 : t.fin - (t.beg + 1) = d := by omega
          rw [e1, e2, Nat.add_mul]; omega
      · right
        exact ⟨e, t.beg, by rw [hstep, he]; rfl, h.beg.1, hlt, he⟩
      all_goals
        exfalso
        unfold evalAt at he
        split at he
        · cases he
        · split at he <;> cases he
  · left
    obtain ⟨hs1, hs2⟩ := h.started (by simp [ht])
    have hbn : t.beg * p.nf ≤ r.2 * p.nf := Nat.mul_le_mul_right _ h.beg.2
    have hrn : r.2 * p.nf ≤ n * p.nf := Nat.mul_le_mul_right _ hr2
    have hpl := h.pendLen
    rw [ht, List.length_cons] at hs2 hpl
    have hpos : t.pos < ret.length := by rw [hr]; omega
    have hlow : r.1 * p.nf ≤ t.pos := by
      have : (r.1 + 1) * p.nf ≤ t.beg * p.nf := Nat.mul_le_mul_right _ hs1
      rw [Nat.add_mul] at this; omega
    refine ⟨ret.set t.pos v, _, by rw [Worker.step, ht]; simp only [Outcome.set_of_lt hpos, Outcome.bind_ok]; rfl,
      by simp [hr], ?_, ?_, ?_⟩
    · refine ⟨h.fin, h.beg, by simp only; omega, ?_, h.good, ?_, ?_⟩
      · intro _; exact ⟨hs1, by simp only; omega⟩
      · intro j hj
        have := h.pend (j + 1) (by rw [ht]; simp only at hj; simp; omega)
        rw [ht] at this
        simp only [List.getElem?_cons_succ] at this
        rw [this]; simp only; congr 1; omega
      · intro q h1 h2
        simp only at h2
        rw [List.getElem?_set]
        by_cases hq : t.pos = q
        · subst hq
          rw [if_pos rfl, if_pos hpos]
          have := h.pend 0 (by rw [ht]; simp)
          rw [ht] at this
          simpa using this
        · rw [if_neg hq]
          apply h.written q h1
          rw [ht, List.length_cons]; omega
    · simp only [work, ht, List.length_cons]; omega
    · intro q hq
      rw [List.getElem?_set, if_neg]
      intro e; apply hq; rw [← e]; exact ⟨hlow, by omega⟩

/-- All tasks. -/
structure Binvs (p : P K) (dvs : List (Fl K)) (n : Nat) (rs : List (Nat × Nat)) (s : List (Fl K) × List (Worker K)) :
    Prop where
  len : s.1.length = n * p.nf
  tasks : s.2.length = rs.length
  inv : ∀ (i : Nat) (r : Nat × Nat) (t : Worker K), rs[i]? = some r → s.2[i]? = some t → BInv p dvs s.1 r t

theorem run_tasks {p : P K} (hnf : 0 < p.nf) {dvs : List (Fl K)} {n : Nat} (hd : dvs.length = n * p.nx)
    {rs : List (Nat × Nat)} (hp : Partition n rs) (sched : List Nat) :
    ∀ s, Binvs p dvs n rs s →
      (∃ s', runTasks p dvs sched s = .ok s' ∧ Binvs p dvs n rs s' ∧
        ∀ (i : Nat) (t t' : Worker K), s.2[i]? = some t → s'.2[i]? = some t' →
          work p t' = work p t - sched.count i) ∨
      (∃ e i, runTasks p dvs sched s = .throws e ∧ i < n ∧ evalAt p dvs i = .throws e) := by
  induction sched with
  | nil =>
    intro s h
    refine Or.inl ⟨s, rfl, h, ?_⟩
    intro i t t' h1 h2
    rw [h1] at h2; cases h2; simp
  | cons i is ih =>
    rintro ⟨ret, ts⟩ h
    rw [runTasks]
    cases hi : ts[i]? with
    | none =>
      rcases ih _ h with ⟨s', h1, h2, h3⟩ | h'
      · refine Or.inl ⟨s', h1, h2, ?_⟩
        intro j t t' ht ht'
        rw [h3 j t t' ht ht', List.count_cons, if_neg]
        · rfl
        · intro e
          have e : i = j := by simpa using e
          subst e
          simp only at ht
          rw [hi] at ht; cases ht
      · exact Or.inr h'
    | some t =>
      have hil : i < rs.length := by
        have := (List.getElem?_eq_some_iff.mp hi).1
        have := h.tasks
        simp only at this
        omega
      have hir : rs[i]? = some rs[i] := List.getElem?_eq_getElem hil
      have hI := h.inv i _ t hir hi
      have hr2 := (hp.le _ (List.getElem_mem hil)).2
      rcases bstep hnf hd h.len hr2 hI with ⟨ret', t', e1, e2, e3, e4, e5⟩ | ⟨e, j, e1, e2, e3, e4⟩
      · simp only [e1, Outcome.bind_ok]
        have hb : Binvs p dvs n rs (ret', ts.set i t') := by
          refine ⟨e2, by simpa using h.tasks, ?_⟩
          intro j r u hj hu
          simp only [List.getElem?_set] at hu
          by_cases hij : i = j
          · subst hij
            rw [if_pos rfl] at hu
            split at hu
            · cases hu
              rw [hir] at hj; cases hj; exact e3
            · cases hu
          · rw [if_neg hij] at hu
            refine binv_frame (h.inv j r u hj hu) (fun q hq1 hq2 => e5 q ?_)
            rintro ⟨a1, a2⟩
            have hdis : ∀ x, ¬ ((rs[i]).1 ≤ x ∧ x < (rs[i]).2 ∧ r.1 ≤ x ∧ x < r.2) := by
              obtain ⟨hjl, rfl⟩ := List.getElem?_eq_some_iff.mp hj
              rcases Nat.lt_or_gt_of_ne hij with hlt | hlt
              · exact List.pairwise_iff_getElem.mp hp.disjoint i j hil hjl hlt
              · intro x hx
                exact List.pairwise_iff_getElem.mp hp.disjoint j i hjl hil hlt x ⟨hx.2.2.1, hx.2.2.2, hx.1, hx.2.1⟩
            apply hdis (q / p.nf)
            have l1 : ∀ a, a * p.nf ≤ q → a ≤ q / p.nf := fun a ha => (Nat.le_div_iff_mul_le hnf).mpr ha
            have l2 : ∀ a, q < a * p.nf → q / p.nf < a := fun a ha => (Nat.div_lt_iff_lt_mul hnf).mpr ha
            exact ⟨l1 _ a1, l2 _ a2, l1 _ hq1, l2 _ hq2⟩
        rcases ih _ hb with ⟨s', h1, h2, h3⟩ | h'
        · refine Or.inl ⟨s', h1, h2, ?_⟩
          intro j u u' hu hu'
          by_cases hij : i = j
          · subst hij
            rw [hi] at hu; cases hu
            have hlt := (List.getElem?_eq_some_iff.mp hi).1
            rw [h3 i t' u' (by simp [hlt]) hu', e4]
            simp; omega
          · rw [h3 j u u' (by simp only [List.getElem?_set, if_neg hij]; exact hu) hu',
              List.count_cons, if_neg (by simpa using hij)]
            rfl
        · exact Or.inr h'
      · right
        exact ⟨e, j, by simp [e1], by omega, e4⟩

theorem flatMap_getElem? {nf : Nat} (hnf : 0 < nf) (F : Nat → List (Fl K)) (n : Nat)
    (hF : ∀ i < n, (F i).length = nf) :
    ((List.range n).flatMap F).length = n * nf ∧
    ∀ q < n * nf, ((List.range n).flatMap F)[q]? = (F (q / nf))[q % nf]? := by
  induction n with
  | zero => simp
  | succ k ih =>
    obtain ⟨i1, i2⟩ := ih (fun i hi => hF i (by omega))
    rw [List.range_succ, List.flatMap_append]
    have hk : (F k).length = nf := hF k (by omega)
    constructor
    · simp [i1, hk]; ring
    · intro q hq
      by_cases h : q < k * nf
      · rw [List.getElem?_append_left (by rw [i1]; exact h)]; exact i2 q h
      · rw [List.getElem?_append_right (by rw [i1]; omega), i1]
        obtain ⟨d, rfl⟩ : ∃ d, q = k * nf + d := ⟨q - k * nf, by omega⟩
        have hdn : d < nf := by rw [Nat.add_mul] at hq; omega
        simp only [List.flatMap_cons, List.flatMap_nil, List.append_nil]
        rw [Nat.add_sub_cancel_left, Nat.mul_comm, Nat.mul_add_div hnf, Nat.div_eq_of_lt hdn, Nat.mul_add_mod,
          Nat.mod_eq_of_lt hdn, Nat.add_zero]

/-- C21. A batch whose length is a multiple of the dimension, a problem safe enough, any partition of the index range
and any interleaving of the tasks. If the call returns, every decision vector was evaluated successfully and the
result is the concatenation of the fitness vectors in order. If it throws, evaluating some decision vector throws
that. Nothing is ever read or written out of range. A schedule that gives every task enough turns makes the call
return or throw. -/
theorem C21_threads [Field K] [LinearOrder K] (p : P K) (hnx : 0 < p.nx) (hnf : 0 < p.nf) (hs : p.safety ≠ .none)
    (dvs : List (Fl K)) (n : Nat) (hd : dvs.length = n * p.nx) (hov : n * p.nf < 2 ^ 64) (zero : Fl K)
    (rs : List (Nat × Nat)) (hp : Partition n rs) (sched : List Nat) :
    bfeThread p dvs zero rs sched ≠ .ub ∧
    (∀ out, bfeThread p dvs zero rs sched = .ok out →
      ∃ F : Nat → List (Fl K), (∀ i < n, p.user (dvAt p.nx dvs i) = .ok (F i) ∧ (F i).length = p.nf) ∧
        out = (List.range n).flatMap F) ∧
    (∀ e, bfeThread p dvs zero rs sched = .throws e →
      ∃ i < n, p.user (dvAt p.nx dvs i) = .error e ∨
        e = .invalidArgument ∧ ∃ f, p.user (dvAt p.nx dvs i) = .ok f ∧ f.length ≠ p.nf) ∧
    ((∀ (i : Nat) (r : Nat × Nat), rs[i]? = some r → (r.2 - r.1) * (p.nf + 1) ≤ sched.count i) →
      bfeThread p dvs zero rs sched ≠ .nofuel) := by
  have hn : dvs.length / p.nx = n := by rw [hd]; exact Nat.mul_div_cancel _ hnx
  have hstart : Binvs p dvs n rs (List.replicate (n * p.nf) zero, startTasks rs) := by
    refine ⟨by simp, by simp [startTasks], ?_⟩
    intro i r t h1 h2
    simp only [startTasks, List.getElem?_map, h1, Option.map_some, Option.some.injEq] at h2
    subst h2
    have := hp.le r (List.mem_of_getElem? h1)
    refine ⟨rfl, ⟨le_refl _, this.1⟩, by simp, by simp, ?_, by simp, ?_⟩
    · intro i h1 h2; simp only at h2; omega
    · intro q h1 h2; simp only [List.length_nil] at h2; omega
  have evthrow : ∀ e i, evalAt p dvs i = .throws e → p.user (dvAt p.nx dvs i) = .error e ∨
        e = .invalidArgument ∧ ∃ f, p.user (dvAt p.nx dvs i) = .ok f ∧ f.length ≠ p.nf := by
    intro e i h
    unfold evalAt at h
    split at h
    · rename_i e' he; cases h; exact Or.inl he
    · rename_i f hf
      split at h
      · cases h
      · rename_i hne
        cases h; exact Or.inr ⟨rfl, f, hf, hne⟩
  have hthread : threadBfe p dvs zero rs sched =
      (runTasks p dvs sched (List.replicate (n * p.nf) zero, startTasks rs) >>= fun s =>
        if s.2.all Worker.finished then .ok s.1 else .nofuel) := by
    unfold threadBfe
    simp only [hn]
    rw [if_neg, if_neg hs]
    rw [sizeMax, gt_iff_lt, not_lt, Nat.le_div_iff_mul_le hnf]; omega
  have hin : checkInput p.nx dvs = .ok () := checkInput_ok.mpr ⟨n, by rw [hd, Nat.mul_comm]⟩
  unfold bfeThread
  rw [hin, hthread]
  simp only [Outcome.bind_ok]
  rcases run_tasks hnf hd hp sched _ hstart with ⟨s', h1, h2, h3⟩ | ⟨e, i, h1, h2, h3⟩
  · rw [h1]
    simp only [Outcome.bind_ok]
    by_cases hfin : s'.2.all Worker.finished = true
    · rw [if_pos hfin]
      simp only [Outcome.bind_ok]
      have key : (∀ i < n, evalAt p dvs i = .ok (expect p dvs i)) ∧
          ∀ q < n * p.nf, s'.1[q]? = tgt p dvs q := by
        have task : ∀ i < n, ∃ (r : Nat × Nat) (t : Worker K), r.1 ≤ i ∧ i < r.2 ∧ BInv p dvs s'.1 r t ∧
            t.beg = r.2 ∧ t.pend = [] := by
          intro i hi
          obtain ⟨r, hr, hr1, hr2⟩ := hp.cover i hi
          obtain ⟨j, hj, rfl⟩ := List.mem_iff_getElem.mp hr
          have hjt : j < s'.2.length := by rw [h2.tasks]; exact hj
          have hb := h2.inv j _ _ (List.getElem?_eq_getElem hj) (List.getElem?_eq_getElem hjt)
          have hf := List.all_eq_true.mp hfin _ (List.getElem_mem hjt)
          simp only [Worker.finished, Bool.and_eq_true, beq_iff_eq, List.isEmpty_iff] at hf
          exact ⟨_, _, hr1, hr2, hb, hf.1.trans hb.fin, hf.2⟩
        constructor
        · intro i hi
          obtain ⟨r, t, hr1, hr2, hb, e1, _⟩ := task i hi
          exact hb.good i hr1 (by omega)
        · intro q hq
          obtain ⟨r, t, hr1, hr2, hb, e1, e2⟩ := task (q / p.nf) ((Nat.div_lt_iff_lt_mul hnf).mpr hq)
          apply hb.written q
          · exact (Nat.le_div_iff_mul_le hnf).mp hr1
          · rw [e1, e2, List.length_nil, Nat.sub_zero]
            exact (Nat.div_lt_iff_lt_mul hnf).mp hr2
      obtain ⟨kg, kq⟩ := key
      have hout := flatMap_getElem? hnf (expect p dvs) n (fun i hi => (evalAt_len (kg i hi)).1)
      have heq : s'.1 = (List.range n).flatMap (expect p dvs) := by
        apply List.ext_getElem?
        intro q
        by_cases hq : q < n * p.nf
        · rw [kq q hq, hout.2 q hq]; rfl
        · rw [List.getElem?_eq_none (by rw [h2.len]; omega), List.getElem?_eq_none (by rw [hout.1]; omega)]
      have hco : checkOutput p.nx p.nf dvs s'.1 = .ok () := by
        unfold checkOutput
        rw [h2.len, hn, if_neg (by simp), if_neg (by simp [Nat.mul_div_cancel _ hnf])]
      rw [hco]
      simp only [Outcome.bind_ok]
      refine ⟨by simp, ?_, by simp, by simp⟩
      intro out ho
      cases ho
      refine ⟨expect p dvs, ?_, heq⟩
      intro i hi
      have := kg i hi
      obtain ⟨hl, _⟩ := evalAt_len this
      refine ⟨?_, hl⟩
      generalize expect p dvs i = f at *
      unfold evalAt at this
      split at this
      · cases this
      · rename_i f' hf'
        split at this
        · cases this; exact hf'
        · cases this
    · rw [if_neg hfin]
      refine ⟨by simp, by simp, by simp, ?_⟩
      intro hfair
      exfalso
      apply hfin
      rw [List.all_eq_true]
      intro t ht
      obtain ⟨j, hj, rfl⟩ := List.mem_iff_getElem.mp ht
      have hjr : j < rs.length := by rw [← h2.tasks]; exact hj
      have hb := h2.inv j _ _ (List.getElem?_eq_getElem hjr) (List.getElem?_eq_getElem hj)
      have hw := h3 j ⟨(rs[j]).1, (rs[j]).2, 0, []⟩ s'.2[j]
        (by simp only [startTasks, List.getElem?_map, List.getElem?_eq_getElem hjr]; rfl)
        (List.getElem?_eq_getElem hj)
      have hc := hfair j _ (List.getElem?_eq_getElem hjr)
      simp only [work, List.length_nil, Nat.add_zero] at hw
      have hz : ((s'.2[j]).fin - (s'.2[j]).beg) * (p.nf + 1) + (s'.2[j]).pend.length = 0 := by omega
      have z1 : (s'.2[j]).pend = [] := List.length_eq_zero_iff.mp (by omega)
      have z2 : (s'.2[j]).fin - (s'.2[j]).beg = 0 := by
        rcases Nat.mul_eq_zero.mp (by omega : ((s'.2[j]).fin - (s'.2[j]).beg) * (p.nf + 1) = 0) with h | h <;> omega
      have z3 := hb.beg; have z4 := hb.fin
      simp only [Worker.finished, z1, Bool.and_eq_true, beq_iff_eq, List.isEmpty_nil, and_true]
      omega
  · rw [h1]
    refine ⟨by simp, by simp, ?_, by simp⟩
    intro e' he'
    simp at he'
    subst he'
    exact ⟨i, h2, evthrow _ _ h3⟩

/-- C21 (rejected calls). A batch whose length is not a multiple of the dimension, or a problem without thread
safety, makes the call throw `std::invalid_argument`. -/
theorem C21_rejects [Field K] [LinearOrder K] (p : P K) (hnf : 0 < p.nf) (dvs : List (Fl K))
    (zero : Fl K) (rs : List (Nat × Nat)) (sched : List Nat) (hsz : dvs.length / p.nx * p.nf < 2 ^ 64)
    (h : ¬ p.nx ∣ dvs.length ∨ p.safety = .none) :
    bfeThread p dvs zero rs sched = .throws .invalidArgument := by
  unfold bfeThread
  by_cases hd : p.nx ∣ dvs.length
  · rw [checkInput_ok.mpr hd]
    have hs : p.safety = .none := by tauto
    unfold threadBfe
    simp only [Outcome.bind_ok]
    rw [if_neg, if_pos hs]
    · rfl
    · rw [sizeMax, gt_iff_lt, not_lt, Nat.le_div_iff_mul_le hnf]; omega
  · have : checkInput p.nx dvs = .throws .invalidArgument := by
      unfold checkInput
      rw [if_pos]
      rwa [Nat.dvd_iff_mod_eq_zero] at hd
    rw [this]; rfl

/-- C21 (default evaluator). With a user-provided batch function, the result is that function's result if it holds
exactly one fitness vector per decision vector, and the call throws otherwise; the problem's own fitness function and
its thread safety play no role. Without one, a problem with no thread safety is rejected, any other is evaluated in
threads. -/
theorem C21_default [Field K] [LinearOrder K] (p : P K) (hnx : 0 < p.nx) (hnf : 0 < p.nf)
    (dvs : List (Fl K)) (n : Nat) (hd : dvs.length = n * p.nx) (zero : Fl K)
    (rs : List (Nat × Nat)) (sched : List Nat) :
    (∀ (g : List (Fl K) → User (List (Fl K))) (out : List (Fl K)),
      bfeDefault p (some g) dvs zero rs sched = .ok out ↔ g dvs = .ok out ∧ out.length = n * p.nf) ∧
    (∀ (g : List (Fl K) → User (List (Fl K))) (e : Exn),
      bfeDefault p (some g) dvs zero rs sched = .throws e ↔
        g dvs = .error e ∨ e = .invalidArgument ∧ ∃ f, g dvs = .ok f ∧ f.length ≠ n * p.nf) ∧
    (p.safety = .none → bfeDefault p none dvs zero rs sched = .throws .invalidArgument) ∧
    (p.safety ≠ .none → bfeDefault p none dvs zero rs sched = bfeThread p dvs zero rs sched) := by
  have hin : checkInput p.nx dvs = .ok () := checkInput_ok.mpr ⟨n, by rw [hd, Nat.mul_comm]⟩
  have hn : dvs.length / p.nx = n := by rw [hd]; exact Nat.mul_div_cancel _ hnx
  have hco : ∀ f : List (Fl K), checkOutput p.nx p.nf dvs f =
      if f.length = n * p.nf then .ok () else .throws .invalidArgument := by
    intro f
    unfold checkOutput
    rw [hn]
    by_cases h : f.length = n * p.nf
    · rw [if_pos h, h, if_neg (by simp), if_neg (by simp [Nat.mul_div_cancel _ hnf])]
    · rw [if_neg h]
      split
      · rfl
      · rw [if_pos]
        intro e
        apply h
        have := Nat.div_add_mod f.length p.nf
        rename_i hm
        have hm : f.length % p.nf = 0 := by simpa using hm
        rw [e, hm, Nat.add_zero, Nat.mul_comm] at this
        exact this.symm
  have hmem : ∀ g : List (Fl K) → User (List (Fl K)), bfeDefault p (some g) dvs zero rs sched =
      match g dvs with
      | .error e => .throws e
      | .ok f => if f.length = n * p.nf then .ok f else .throws .invalidArgument := by
    intro g
    unfold bfeDefault defaultBfe memberBfe
    rw [hin]
    simp only [Outcome.bind_ok]
    cases g dvs with
    | error e => rfl
    | ok f =>
      simp only [ofUser, Outcome.bind_ok, hco]
      by_cases h : f.length = n * p.nf
      · simp [h]
      · simp [h]
  refine ⟨?_, ?_, ?_, ?_⟩
  · intro g out
    rw [hmem]
    cases g dvs with
    | error e => simp
    | ok f =>
      by_cases h : f.length = n * p.nf
      · simp only [h, if_true, Outcome.ok.injEq, Except.ok.injEq]
        constructor
        · rintro rfl; exact ⟨rfl, h⟩
        · exact fun h => h.1
      · simp only [h, if_false, Except.ok.injEq]
        constructor
        · intro h; cases h
        · rintro ⟨rfl, h'⟩; exact absurd h' h
  · intro g e
    rw [hmem]
    cases g dvs with
    | error e => simp
    | ok f =>
      by_cases h : f.length = n * p.nf
      · simp [h]
      · simp [h]; exact eq_comm
  · intro hs
    unfold bfeDefault defaultBfe
    rw [hin]
    simp [hs]
  · intro hs
    unfold bfeDefault defaultBfe bfeThread
    simp only [if_neg hs]

/-- two tasks, interleaved writes -/
def demoBfe : P ℚ := ⟨1, 2, .basic, fun x => .ok (x ++ x)⟩

example : bfeThread demoBfe [.fin 1, .fin 2, .fin 3] (.fin 0) [(1, 3), (0, 1)] [0, 1, 0, 1, 0, 1, 0, 0, 0] =
    .ok [.fin 1, .fin 1, .fin 2, .fin 2, .fin 3, .fin 3] := by decide +kernel

example : Partition 3 [(1, 3), (0, 1)] := by
  refine ⟨by decide, ?_, ?_⟩
  · simp; intro i; omega
  · intro i hi; simp; omega

end Verif.Props
