import Verif.Model.IslandControl
import Mathlib.Tactic.Ring
import Mathlib.Data.List.Basic
import Mathlib.Data.List.Forall2

/-!
# C40: island status, `wait`, `wait_check`

The specification is a function of the history: how many evolutions were enqueued, how the finished ones ended, and how
many had been enqueued when `wait_check` last returned.
-/

set_option autoImplicit false

namespace Verif.Props

open Verif Isl

/-- Summary of a history. -/
structure Hist where
  enq : Nat
  fin : List Res
  since : Nat
  deriving DecidableEq

/-- One more observation. -/
def Hist.add (h : Hist) : Isl.Obs → Hist
  | .evolve => { h with enq := h.enq + 1 }
  | .finish r => { h with fin := h.fin ++ [r] }
  | .checkRet _ => { h with since := h.enq }
  | _ => h

def hist (l : List Isl.Obs) : Hist := l.foldl Hist.add ⟨0, [], 0⟩

/-- The first exception of an evolution enqueued since `wait_check` last returned, if any. -/
def Hist.firstError (h : Hist) : Res := (h.fin.drop h.since).findSome? id

/-- Are there unfinished evolutions? -/
def Hist.busy (h : Hist) : Bool := decide (h.fin.length < h.enq)

/-- The documented status. -/
def Hist.status (h : Hist) : Isl.Status :=
  match h.busy, h.firstError.isSome with
  | false, false => .idle
  | true, false => .busy
  | false, true => .idleError
  | true, true => .busyError

/-- What the documentation promises about the observation `o` after the history `l`. -/
def ObsOk (l : List Isl.Obs) : Isl.Obs → Prop
  | .statusRet v => ∃ before during1 during2, l = before ++ .statusCall :: (during1 ++ during2) ∧
      (∀ o ∈ during1 ++ during2, ∃ r, o = .finish r) ∧ v = (hist (before ++ .statusCall :: during1)).status
  | .waitRet => (hist l).fin.length = (hist l).enq
  | .checkRet r => (hist l).fin.length = (hist l).enq ∧ r = (hist l).firstError
  | _ => True

/-- Every observation of a history is as documented. -/
def HistoryOk (l : List Isl.Obs) : Prop := ∀ a o b, l = a ++ o :: b → ObsOk a o

theorem hist_snoc (l : List Isl.Obs) (o : Isl.Obs) : hist (l ++ [o]) = (hist l).add o := by
  simp [hist]

theorem historyOk_snoc {l : List Isl.Obs} {o : Isl.Obs} (h : HistoryOk l) (ho : ObsOk l o) : HistoryOk (l ++ [o]) := by
  intro a o' b hl
  rcases List.eq_nil_or_concat b with rfl | ⟨b', x, rfl⟩
  · obtain ⟨h1, h2⟩ := List.append_inj' hl rfl
    cases h2; cases h1; exact ho
  · rw [List.concat_eq_append, ← List.cons_append, ← List.append_assoc] at hl
    obtain ⟨h1, -⟩ := List.append_inj' hl rfl
    exact h a o' b' h1

/-! ## Invariant -/

/-- The future stands for task `k`. -/
def Stands (fin : List Res) (f : Fut) (k : Nat) : Prop := f = .task k ∨ ∃ r, f = .stored r ∧ fin[k]? = some r

/-- Tasks `[a, b)` ended normally. -/
def CleanFrom (fin : List Res) (a b : Nat) : Prop := ∀ k, a ≤ k → k < b → fin[k]? = some none

/-- The tasks whose futures are kept: a contiguous range up to the newest, possibly preceded by the first failed one. -/
def Kept (fin : List Res) (enq since : Nat) (ks : List Nat) : Prop :=
  ∃ base, since ≤ base ∧ base ≤ fin.length ∧ base ≤ enq ∧
    ((ks = List.range' base (enq - base) ∧ CleanFrom fin since base) ∨
     (∃ j e, ks = j :: List.range' base (enq - base) ∧ since ≤ j ∧ j < base ∧ fin[j]? = some (some e) ∧ CleanFrom fin since j))

/-- Invariant of the position of the owner; `ks` are the tasks of the futures. -/
def PcOk (s : Isl.State) (since : Nat) (ks : List Nat) : Prop :=
  match s.pc with
  | .ub => False
  | .out => List.Forall₂ (Stands s.fin) s.futures ks
  | .statusAt i err => List.Forall₂ (Stands s.fin) s.futures ks ∧ i ≤ ks.length ∧ (∀ k ∈ ks.take i, k < s.fin.length) ∧
      (err = true ↔ ∃ k ∈ ks.take i, ∃ e, s.fin[k]? = some (some e)) ∧
      (∃ before during, s.log = before ++ .statusCall :: during ∧ ∀ o ∈ during, ∃ r, o = .finish r)
  | .statusRet v => List.Forall₂ (Stands s.fin) s.futures ks ∧
      ∃ before during1 during2, s.log = before ++ .statusCall :: (during1 ++ during2) ∧
      (∀ o ∈ during1 ++ during2, ∃ r, o = .finish r) ∧ v = (hist (before ++ .statusCall :: during1)).status
  | .waitAt i first => List.Forall₂ (Stands s.fin) s.futures ks ∧ i ≤ ks.length ∧ (∀ k ∈ ks.take i, k < s.fin.length) ∧
      (match first with
        | none => ∀ k ∈ ks.take i, s.fin[k]? = some none
        | some j => j < i ∧ (∀ k ∈ ks.take j, s.fin[k]? = some none) ∧ ∃ k e, ks[j]? = some k ∧ s.fin[k]? = some (some e))
  | .checkAt i => List.Forall₂ (Stands s.fin) (s.futures.drop i) (ks.drop i) ∧ s.futures.length = ks.length ∧ i ≤ ks.length ∧
      ∀ k ∈ ks.take i, s.fin[k]? = some none
  | .drainAt i e => List.Forall₂ (Stands s.fin) (s.futures.drop i) (ks.drop i) ∧ s.futures.length = ks.length ∧ i ≤ ks.length ∧
      (∀ k ∈ ks.take i, k < s.fin.length) ∧
      ∃ j < i, (∀ k ∈ ks.take j, s.fin[k]? = some none) ∧ ∃ k, ks[j]? = some k ∧ s.fin[k]? = some (some e)

structure IslInv (s : Isl.State) : Prop where
  enq : (hist s.log).enq = s.enq
  fin : (hist s.log).fin = s.fin
  le : s.fin.length ≤ s.enq
  since : (hist s.log).since ≤ s.fin.length
  ok : HistoryOk s.log
  kept : ∃ ks, Kept s.fin s.enq (hist s.log).since ks ∧ PcOk s (hist s.log).since ks

/-! ### Lists of results -/

theorem firstError_none {h : Hist} : h.firstError = none ↔ CleanFrom h.fin h.since h.fin.length := by
  unfold Hist.firstError CleanFrom
  rw [List.findSome?_eq_none_iff]
  constructor
  · intro hh k h1 h2
    rw [List.getElem?_eq_getElem h2]
    congr 1
    refine hh _ ?_
    rw [List.mem_iff_getElem?]
    exact ⟨k - h.since, by rw [List.getElem?_drop, Nat.add_sub_cancel' h1, List.getElem?_eq_getElem h2]⟩
  · intro hh r hr
    rw [List.mem_iff_getElem?] at hr
    obtain ⟨i, hi⟩ := hr
    rw [List.getElem?_drop] at hi
    have hlt := (List.getElem?_eq_some_iff.mp hi).1
    rw [hh (h.since + i) (by omega) hlt] at hi
    cases hi; rfl

theorem firstError_eq {h : Hist} {j : Nat} {e : Exn} (h1 : h.since ≤ j) (h2 : CleanFrom h.fin h.since j)
    (h3 : h.fin[j]? = some (some e)) : h.firstError = some e := by
  unfold Hist.firstError
  have hj := (List.getElem?_eq_some_iff.mp h3).1
  have : h.fin.drop h.since = (h.fin.drop h.since).take (j - h.since) ++ some e :: h.fin.drop (j + 1) := by
    conv_lhs => rw [← List.take_append_drop (j - h.since) (h.fin.drop h.since), List.drop_drop, Nat.add_sub_cancel' h1]
    congr 1
    rw [List.drop_eq_getElem_cons hj]
    congr 1
    exact (List.getElem?_eq_some_iff.mp h3).2
  rw [this, List.findSome?_append, List.findSome?_eq_none_iff.mpr]
  · simp
  · intro r hr
    rw [List.mem_iff_getElem?] at hr
    obtain ⟨i, hi⟩ := hr
    rw [List.getElem?_take] at hi
    split at hi
    · rename_i hij
      rw [List.getElem?_drop, h2 (h.since + i) (by omega) (by omega)] at hi
      cases hi; rfl
    · cases hi

/-! ### Tasks of the futures -/

theorem take_rng (b n i : Nat) : (List.range' b n).take i = List.range' b (min i n) := by
  apply List.ext_getElem
  · simp
  · intro m h1 h2
    simp

theorem kept_lt {fin : List Res} {enq since : Nat} {ks : List Nat} (h : Kept fin enq since ks) {k : Nat} (hk : k ∈ ks) : k < enq := by
  obtain ⟨base, h1, h2, h3, ⟨rfl, -⟩ | ⟨j, e, rfl, h4, h5, h6, -⟩⟩ := h
  · rw [List.mem_range'_1] at hk; omega
  · rcases List.mem_cons.mp hk with rfl | hk
    · omega
    · rw [List.mem_range'_1] at hk; omega

/-- When the first `i` kept tasks are finished and the `i`-th is not, everything enqueued before it is finished. -/
theorem kept_running {fin : List Res} {enq since : Nat} {ks : List Nat} (h : Kept fin enq since ks) {i : Nat} (hi : i < ks.length)
    (hd : ∀ k ∈ ks.take i, k < fin.length) (hr : fin.length ≤ ks[i]) :
    fin.length = ks[i] ∧ ((∃ k ∈ ks.take i, ∃ e, fin[k]? = some (some e)) ↔ ¬ CleanFrom fin since fin.length) := by
  obtain ⟨base, h1, h2, h3, ⟨rfl, hc⟩ | ⟨j, e, rfl, h4, h5, h6, hc⟩⟩ := h
  · simp only [List.length_range', List.getElem_range'] at hi hr ⊢
    have hlen : fin.length = base + 1 * i := by
      rcases Nat.eq_zero_or_pos i with rfl | hpos
      · omega
      · have := hd (base + (i - 1)) (by
          rw [take_rng, List.mem_range'_1]; omega)
        omega
    refine ⟨hlen, ?_⟩
    constructor
    · rintro ⟨k, hk, e, he⟩ hcl
      have hk' := (List.mem_range'_1.mp (List.mem_of_mem_take hk)).1
      rw [hcl k (by omega) (List.getElem?_eq_some_iff.mp he).1] at he
      cases he
    · intro hn
      by_contra hno
      apply hn
      intro k hk1 hk2
      by_cases hkb : k < base
      · exact hc k hk1 hkb
      · rw [List.getElem?_eq_getElem hk2]
        congr 1
        cases hv : fin[k] with
        | none => rfl
        | some e =>
          exact absurd ⟨k, by rw [take_rng, List.mem_range'_1]; omega, e, by rw [List.getElem?_eq_getElem hk2, hv]⟩ hno
  · cases i with
    | zero => simp only [List.getElem_cons_zero] at hr; omega
    | succ i =>
      simp only [List.length_cons, List.length_range', List.getElem_cons_succ, List.getElem_range', List.take_succ_cons] at hi hr hd ⊢
      have hlen : fin.length = base + 1 * i := by
        rcases Nat.eq_zero_or_pos i with rfl | hpos
        · omega
        · have := hd (base + (i - 1)) (by
            rw [List.mem_cons, take_rng, List.mem_range'_1]; right; omega)
          omega
      refine ⟨hlen, iff_of_true ⟨j, by simp, e, h6⟩ (fun hcl => ?_)⟩
      rw [hcl j h4 (by omega)] at h6
      cases h6

/-- When all kept tasks are finished, everything enqueued is finished. -/
theorem kept_all {fin : List Res} {enq since : Nat} {ks : List Nat} (h : Kept fin enq since ks) (hle : fin.length ≤ enq)
    (hd : ∀ k ∈ ks, k < fin.length) :
    fin.length = enq ∧ ((∃ k ∈ ks, ∃ e, fin[k]? = some (some e)) ↔ ¬ CleanFrom fin since fin.length) := by
  obtain ⟨base, h1, h2, h3, ⟨rfl, hc⟩ | ⟨j, e, rfl, h4, h5, h6, hc⟩⟩ := h
  · have hlen : fin.length = enq := by
      by_cases hb : base = enq
      · omega
      · have := hd (enq - 1) (by rw [List.mem_range'_1]; omega)
        omega
    refine ⟨hlen, ?_⟩
    constructor
    · rintro ⟨k, hk, e, he⟩ hcl
      have hk' := (List.mem_range'_1.mp hk).1
      rw [hcl k (by omega) (List.getElem?_eq_some_iff.mp he).1] at he
      cases he
    · intro hn
      by_contra hno
      apply hn
      intro k hk1 hk2
      by_cases hkb : k < base
      · exact hc k hk1 hkb
      · rw [List.getElem?_eq_getElem hk2]
        congr 1
        cases hv : fin[k] with
        | none => rfl
        | some e =>
          exact absurd ⟨k, by rw [List.mem_range'_1]; omega, e, by rw [List.getElem?_eq_getElem hk2, hv]⟩ hno
  · have hlen : fin.length = enq := by
      by_cases hb : base = enq
      · omega
      · have := hd (enq - 1) (by rw [List.mem_cons, List.mem_range'_1]; right; omega)
        omega
    refine ⟨hlen, iff_of_true ⟨j, by simp, e, h6⟩ (fun hcl => ?_)⟩
    rw [hcl j h4 (by omega)] at h6
    cases h6

/-- The first failed kept task is the first failed task. -/
theorem kept_first {fin : List Res} {enq since : Nat} {ks : List Nat} (h : Kept fin enq since ks) {j k : Nat} {e : Exn}
    (hc : ∀ k ∈ ks.take j, fin[k]? = some none) (hj : ks[j]? = some k) (he : fin[k]? = some (some e)) :
    since ≤ k ∧ CleanFrom fin since k := by
  obtain ⟨base, h1, h2, h3, ⟨rfl, hcl⟩ | ⟨j', e', rfl, h4, h5, h6, hcl⟩⟩ := h
  · obtain ⟨hjl, hjk⟩ := List.getElem?_eq_some_iff.mp hj
    simp only [List.length_range', List.getElem_range'] at hjl hjk
    refine ⟨by omega, fun m hm1 hm2 => ?_⟩
    by_cases hb : m < base
    · exact hcl m hm1 hb
    · exact hc m (by rw [take_rng, List.mem_range'_1]; omega)
  · cases j with
    | zero => simp at hj; subst hj; exact ⟨h4, hcl⟩
    | succ j =>
      have := hc j' (by simp)
      rw [h6] at this; cases this

theorem kept_fin_snoc {fin : List Res} {enq since : Nat} {ks : List Nat} (h : Kept fin enq since ks) (r : Res) :
    Kept (fin ++ [r]) enq since ks := by
  have hcl : ∀ a b, CleanFrom fin a b → CleanFrom (fin ++ [r]) a b := by
    intro a b h k h1 h2
    have := h k h1 h2
    rw [List.getElem?_append_left (List.getElem?_eq_some_iff.mp this).1, this]
  obtain ⟨base, h1, h2, h3, ⟨rfl, hc⟩ | ⟨j, e, rfl, h4, h5, h6, hc⟩⟩ := h
  · exact ⟨base, h1, by simp; omega, h3, Or.inl ⟨rfl, hcl _ _ hc⟩⟩
  · exact ⟨base, h1, by simp; omega, h3, Or.inr ⟨j, e, rfl, h4, h5, by
      rw [List.getElem?_append_left (List.getElem?_eq_some_iff.mp h6).1, h6], hcl _ _ hc⟩⟩

theorem snoc_get {fin : List Res} {k : Nat} {v : Res} (h : fin[k]? = some v) (r : Res) : (fin ++ [r])[k]? = some v := by
  rw [List.getElem?_append_left (List.getElem?_eq_some_iff.mp h).1, h]

theorem stands_snoc {fin : List Res} (r : Res) {f : Fut} {k : Nat} (h : Stands fin f k) : Stands (fin ++ [r]) f k := by
  rcases h with h | ⟨v, h1, h2⟩
  · exact Or.inl h
  · exact Or.inr ⟨v, h1, snoc_get h2 r⟩

/-- Reading the future of task `k`. -/
theorem look_stands {s : Isl.State} {f : Fut} {k : Nat} (h : Stands s.fin f k) :
    (k < s.fin.length ∧ ∃ r, s.fin[k]? = some r ∧ look s f = .ready r) ∨ (s.fin.length ≤ k ∧ f = .task k ∧ look s f = .notReady) := by
  rcases h with rfl | ⟨r, rfl, h⟩
  · by_cases hk : k < s.fin.length
    · left; exact ⟨hk, _, List.getElem?_eq_getElem hk, by simp [look, List.getElem?_eq_getElem hk]⟩
    · right; exact ⟨by omega, rfl, by simp [look, List.getElem?_eq_none (by omega : s.fin.length ≤ k)]⟩
  · left; exact ⟨(List.getElem?_eq_some_iff.mp h).1, r, h, rfl⟩

theorem forall₂_set {fin : List Res} {fs : List Fut} {ks : List Nat} (h : List.Forall₂ (Stands fin) fs ks) {i k : Nat} {f : Fut}
    (hk : ks[i]? = some k) (hf : Stands fin f k) : List.Forall₂ (Stands fin) (fs.set i f) ks := by
  induction h generalizing i with
  | nil => exact List.Forall₂.nil
  | cons h1 h2 ih =>
    cases i with
    | zero => simp at hk; subst hk; exact List.Forall₂.cons hf h2
    | succ i => exact List.Forall₂.cons h1 (ih (by simpa using hk))

theorem forall₂_get {fin : List Res} {fs : List Fut} {ks : List Nat} (h : List.Forall₂ (Stands fin) fs ks) {i : Nat} {f : Fut}
    (hf : fs[i]? = some f) : ∃ k, ks[i]? = some k ∧ Stands fin f k := by
  obtain ⟨hi, rfl⟩ := List.getElem?_eq_some_iff.mp hf
  have hi' : i < ks.length := by rw [← h.length_eq]; exact hi
  exact ⟨ks[i], List.getElem?_eq_getElem hi', h.get hi hi'⟩

theorem take_succ_mem {ks : List Nat} {i k m : Nat} (hk : ks[i]? = some k) : m ∈ ks.take (i + 1) ↔ m ∈ ks.take i ∨ m = k := by
  rw [List.take_add_one, hk]; simp

/-! ### Preservation -/

theorem inv_init : IslInv Isl.init :=
  ⟨rfl, rfl, Nat.le_refl _, Nat.le_refl _, by intro a o b h; simp [Isl.init] at h,
    [], ⟨0, Nat.le_refl _, Nat.le_refl _, Nat.le_refl _, Or.inl ⟨rfl, by intro k _ h; omega⟩⟩, List.Forall₂.nil⟩

theorem status_value {s : Isl.State} (hi : IslInv s) {err : Bool}
    (h : (err = true) ↔ ¬ CleanFrom s.fin (hist s.log).since s.fin.length) :
    (s.fin.length = s.enq → (hist s.log).status = if err then .idleError else .idle) ∧
    (s.fin.length < s.enq → (hist s.log).status = if err then .busyError else .busy) := by
  have he : (hist s.log).firstError.isSome = err := by
    rw [Bool.eq_iff_iff, h, ← hi.fin, ← firstError_none, Option.isSome_iff_ne_none]
  unfold Hist.status Hist.busy
  rw [he, hi.fin, hi.enq]
  constructor
  · intro h; rw [show decide (s.fin.length < s.enq) = false by simp; omega]; cases err <;> rfl
  · intro h; rw [show decide (s.fin.length < s.enq) = true by simpa using h]; cases err <;> rfl

theorem inv_status {s : Isl.State} (hi : IslInv s) {i : Nat} {err : Bool} (hpc : s.pc = .statusAt i err) :
    IslInv (statusStep s i err) := by
  obtain ⟨ks, hk, hp⟩ := hi.kept
  unfold PcOk at hp
  rw [hpc] at hp
  obtain ⟨hF, hil, hd, herr, before, during, hlog, hdur⟩ := hp
  have hlen := hF.length_eq
  unfold statusStep
  cases hf : s.futures[i]? with
  | none =>
    rw [List.getElem?_eq_none_iff] at hf
    have hall : ks.take i = ks := List.take_of_length_le (by omega)
    rw [hall] at hd herr
    obtain ⟨h1, h2⟩ := kept_all hk hi.le hd
    refine ⟨hi.enq, hi.fin, hi.le, hi.since, hi.ok, ks, hk, ?_⟩
    simp only [PcOk]
    refine ⟨hF, before, during, [], by simpa using hlog, by simpa using hdur, ?_⟩
    rw [← hlog]
    exact ((status_value hi (herr.trans h2)).1 h1).symm
  | some f =>
    obtain ⟨k, hki, hst⟩ := forall₂_get hF hf
    obtain ⟨hil', hkv⟩ := List.getElem?_eq_some_iff.mp hki
    rcases look_stands (s := s) hst with ⟨hlt, r, hr, hlook⟩ | ⟨hge, -, hlook⟩
    · simp only [hlook]
      have hd' : ∀ m ∈ ks.take (i + 1), m < s.fin.length := by
        intro m hm
        rcases (take_succ_mem hki).mp hm with h | rfl
        · exact hd m h
        · exact hlt
      cases herrv : err with
      | true =>
        simp only [if_true]
        refine ⟨hi.enq, hi.fin, hi.le, hi.since, hi.ok, ks, hk, ?_⟩
        simp only [PcOk]
        refine ⟨hF, hil', hd', iff_of_true trivial ?_, before, during, hlog, hdur⟩
        obtain ⟨m, hm, e, he⟩ := herr.mp herrv
        exact ⟨m, (take_succ_mem hki).mpr (Or.inl hm), e, he⟩
      | false =>
        simp only [Bool.false_eq_true, if_false]
        refine ⟨hi.enq, hi.fin, hi.le, hi.since, hi.ok, ks, hk, ?_⟩
        simp only [PcOk]
        refine ⟨forall₂_set hF hki (Or.inr ⟨r, rfl, hr⟩), hil', hd', ?_, before, during, hlog, hdur⟩
        constructor
        · intro h
          obtain ⟨e, rfl⟩ := Option.isSome_iff_exists.mp h
          exact ⟨k, (take_succ_mem hki).mpr (Or.inr rfl), e, hr⟩
        · rintro ⟨m, hm, e, he⟩
          rcases (take_succ_mem hki).mp hm with h | rfl
          · rw [herr.mpr ⟨m, h, e, he⟩] at herrv; cases herrv
          · rw [hr] at he; cases he; rfl
    · simp only [hlook]
      subst hkv
      obtain ⟨h1, h2⟩ := kept_running hk hil' hd hge
      refine ⟨hi.enq, hi.fin, hi.le, hi.since, hi.ok, ks, hk, ?_⟩
      simp only [PcOk]
      refine ⟨hF, before, during, [], by simpa using hlog, by simpa using hdur, ?_⟩
      rw [← hlog]
      exact ((status_value hi (herr.trans h2)).2 (by
        have := kept_lt hk (List.getElem_mem hil'); omega)).symm

theorem busy_false {s : Isl.State} (hi : IslInv s) (h : s.fin.length = s.enq) :
    (hist s.log).fin.length = (hist s.log).enq := by
  rw [hi.fin, hi.enq]; exact h

theorem inv_wait {s s' : Isl.State} (hi : IslInv s) {i : Nat} {first : Option Nat} (hpc : s.pc = .waitAt i first)
    (hs : waitStep s i first = some s') : IslInv s' := by
  obtain ⟨ks, hk, hp⟩ := hi.kept
  unfold PcOk at hp
  rw [hpc] at hp
  obtain ⟨hF, hil, hd, hfst⟩ := hp
  have hlen := hF.length_eq
  unfold waitStep at hs
  cases hf : s.futures[i]? with
  | none =>
    have hf' := List.getElem?_eq_none_iff.mp hf
    have hall : ks.take i = ks := List.take_of_length_le (by omega)
    rw [hall] at hd
    obtain ⟨h1, h2⟩ := kept_all hk hi.le hd
    rw [hf] at hs
    have hok := historyOk_snoc (o := .waitRet) hi.ok (busy_false hi h1)
    cases first with
    | none =>
      simp only [Option.some.injEq] at hs hfst
      subst hs
      rw [hall] at hfst
      refine ⟨by rw [hist_snoc]; exact hi.enq, by rw [hist_snoc]; exact hi.fin, hi.le, by rw [hist_snoc]; exact hi.since, hok,
        [], ?_, List.Forall₂.nil⟩
      rw [hist_snoc]
      refine ⟨s.enq, by have := hi.since; simp only [Hist.add]; omega, by simp only; omega, Nat.le_refl _, Or.inl ⟨by simp, ?_⟩⟩
      by_contra hn
      rw [← h1] at hn
      obtain ⟨m, hm, e, he⟩ := h2.mpr hn
      rw [hfst m hm] at he; cases he
    | some j =>
      simp only at hs hfst
      obtain ⟨hji, hcl, k, e, hkj, he⟩ := hfst
      obtain ⟨hjl, hkv⟩ := List.getElem?_eq_some_iff.mp hkj
      have hjf : s.futures[j]? = some (s.futures[j]'(by omega)) := List.getElem?_eq_getElem (by omega)
      obtain ⟨k', hk', hst⟩ := forall₂_get hF hjf
      rw [hkj] at hk'; cases hk'
      rw [hjf] at hs
      simp only [Option.some.injEq] at hs
      subst hs
      obtain ⟨hc1, hc2⟩ := kept_first hk hcl hkj he
      refine ⟨by rw [hist_snoc]; exact hi.enq, by rw [hist_snoc]; exact hi.fin, hi.le, by rw [hist_snoc]; exact hi.since, hok,
        [k], ?_, List.Forall₂.cons hst List.Forall₂.nil⟩
      rw [hist_snoc]
      refine ⟨s.enq, by have := hi.since; simp only [Hist.add]; omega, by simp only; omega, Nat.le_refl _, Or.inr ⟨k, e, by simp, hc1, ?_, he, hc2⟩⟩
      have := (List.getElem?_eq_some_iff.mp he).1
      omega
  | some f =>
    rw [hf] at hs
    obtain ⟨k, hki, hst⟩ := forall₂_get hF hf
    obtain ⟨hil', hkv⟩ := List.getElem?_eq_some_iff.mp hki
    rcases look_stands (s := s) hst with ⟨hlt, r, hr, hlook⟩ | ⟨hge, -, hlook⟩
    · simp only [hlook] at hs
      have hd' : ∀ m ∈ ks.take (i + 1), m < s.fin.length := by
        intro m hm
        rcases (take_succ_mem hki).mp hm with h | rfl
        · exact hd m h
        · exact hlt
      cases first with
      | none =>
        simp only [if_true, Option.some.injEq] at hs hfst
        subst hs
        refine ⟨hi.enq, hi.fin, hi.le, hi.since, hi.ok, ks, hk, ?_⟩
        simp only [PcOk]
        refine ⟨forall₂_set hF hki (Or.inr ⟨r, rfl, hr⟩), hil', hd', ?_⟩
        cases r with
        | none =>
          simp only [Option.isSome_none, Bool.false_eq_true, if_false]
          intro m hm
          rcases (take_succ_mem hki).mp hm with h | rfl
          · exact hfst m h
          · exact hr
        | some e =>
          simp only [Option.isSome_some, if_true]
          exact ⟨Nat.lt_succ_self _, hfst, k, e, hki, hr⟩
      | some j =>
        simp only [reduceCtorEq, if_false, Option.some.injEq] at hs hfst
        subst hs
        refine ⟨hi.enq, hi.fin, hi.le, hi.since, hi.ok, ks, hk, ?_⟩
        simp only [PcOk]
        exact ⟨hF, hil', hd', by omega, hfst.2⟩
    · simp only [hlook] at hs; cases hs

theorem inv_check_end {s : Isl.State} (hi : IslInv s) {r : Res} (h1 : s.fin.length = s.enq) (hr : r = (hist s.log).firstError) :
    IslInv { s with futures := [], pc := .out, log := s.log ++ [.checkRet r] } := by
  refine ⟨by rw [hist_snoc]; exact hi.enq, by rw [hist_snoc]; exact hi.fin, hi.le, ?_,
    historyOk_snoc hi.ok ⟨busy_false hi h1, hr⟩, [], ?_, List.Forall₂.nil⟩
  · rw [hist_snoc]; simp only [Hist.add]; rw [hi.enq]; omega
  · rw [hist_snoc]; simp only [Hist.add]; rw [hi.enq]
    exact ⟨s.enq, Nat.le_refl _, by omega, Nat.le_refl _, Or.inl ⟨by simp, by intro k h2 h3; omega⟩⟩

theorem drop_get {fs : List Fut} {i : Nat} {f : Fut} (h : fs[i]? = some f) : (fs.drop i)[0]? = some f := by
  rw [List.getElem?_drop]; simpa using h

theorem forall₂_tail {fin : List Res} {fs : List Fut} {ks : List Nat} {i : Nat}
    (h : List.Forall₂ (Stands fin) (fs.drop i) (ks.drop i)) : List.Forall₂ (Stands fin) (fs.drop (i + 1)) (ks.drop (i + 1)) := by
  rw [← List.tail_drop, ← List.tail_drop]
  revert h
  generalize fs.drop i = a; generalize ks.drop i = b
  intro h
  cases h with
  | nil => exact List.Forall₂.nil
  | cons h1 h2 => exact h2

theorem inv_check {s s' : Isl.State} (hi : IslInv s) {i : Nat} (hpc : s.pc = .checkAt i)
    (hs : checkStep s i = some s') : IslInv s' := by
  obtain ⟨ks, hk, hp⟩ := hi.kept
  unfold PcOk at hp
  rw [hpc] at hp
  obtain ⟨hF, hlen, hil, hcl⟩ := hp
  unfold checkStep at hs
  cases hf : s.futures[i]? with
  | none =>
    have hf' := List.getElem?_eq_none_iff.mp hf
    have hall : ks.take i = ks := List.take_of_length_le (by omega)
    rw [hall] at hcl
    obtain ⟨h1, h2⟩ := kept_all hk hi.le (fun k hk => (List.getElem?_eq_some_iff.mp (hcl k hk)).1)
    rw [hf] at hs
    simp only [Option.some.injEq] at hs
    subst hs
    refine inv_check_end hi h1 (Eq.symm ?_)
    rw [firstError_none, hi.fin]
    by_contra hn
    obtain ⟨m, hm, e, he⟩ := h2.mpr hn
    rw [hcl m hm] at he; cases he
  | some f =>
    rw [hf] at hs
    obtain ⟨k, hki, hst⟩ := forall₂_get hF (drop_get hf)
    rw [List.getElem?_drop, Nat.add_zero] at hki
    have hil' := (List.getElem?_eq_some_iff.mp hki).1
    have hF' : List.Forall₂ (Stands s.fin) ((s.futures.set i .invalid).drop (i + 1)) (ks.drop (i + 1)) := by
      rw [List.drop_set_of_lt (Nat.lt_succ_self i)]; exact forall₂_tail hF
    rcases look_stands (s := s) hst with ⟨hlt, r, hr, hlook⟩ | ⟨hge, -, hlook⟩
    · cases r with
      | none =>
        simp only [hlook, Option.some.injEq] at hs
        subst hs
        refine ⟨hi.enq, hi.fin, hi.le, hi.since, hi.ok, ks, hk, ?_⟩
        simp only [PcOk]
        refine ⟨hF', by simpa using hlen, hil', fun m hm => ?_⟩
        rcases (take_succ_mem hki).mp hm with h | rfl
        · exact hcl m h
        · exact hr
      | some e =>
        simp only [hlook, Option.some.injEq] at hs
        subst hs
        refine ⟨hi.enq, hi.fin, hi.le, hi.since, hi.ok, ks, hk, ?_⟩
        simp only [PcOk]
        refine ⟨hF', by simpa using hlen, hil', fun m hm => ?_, i, Nat.lt_succ_self _, hcl, k, hki, hr⟩
        rcases (take_succ_mem hki).mp hm with h | rfl
        · exact (List.getElem?_eq_some_iff.mp (hcl m h)).1
        · exact hlt
    · simp only [hlook] at hs; cases hs

theorem inv_drain {s s' : Isl.State} (hi : IslInv s) {i : Nat} {e : Exn} (hpc : s.pc = .drainAt i e)
    (hs : drainStep s i e = some s') : IslInv s' := by
  obtain ⟨ks, hk, hp⟩ := hi.kept
  unfold PcOk at hp
  rw [hpc] at hp
  obtain ⟨hF, hlen, hil, hd, j, hji, hcl, k, hkj, he⟩ := hp
  unfold drainStep at hs
  cases hf : s.futures[i]? with
  | none =>
    have hf' := List.getElem?_eq_none_iff.mp hf
    have hall : ks.take i = ks := List.take_of_length_le (by omega)
    rw [hall] at hd
    obtain ⟨h1, h2⟩ := kept_all hk hi.le hd
    rw [hf] at hs
    simp only [Option.some.injEq] at hs
    subst hs
    obtain ⟨hc1, hc2⟩ := kept_first hk hcl hkj he
    exact inv_check_end hi h1 (firstError_eq hc1 (by rw [hi.fin]; exact hc2) (by rw [hi.fin]; exact he)).symm
  | some f =>
    rw [hf] at hs
    obtain ⟨k', hki, hst⟩ := forall₂_get hF (drop_get hf)
    rw [List.getElem?_drop, Nat.add_zero] at hki
    have hil' := (List.getElem?_eq_some_iff.mp hki).1
    rcases look_stands (s := s) hst with ⟨hlt, r, hr, hlook⟩ | ⟨hge, -, hlook⟩
    · simp only [hlook, Option.some.injEq] at hs
      subst hs
      refine ⟨hi.enq, hi.fin, hi.le, hi.since, hi.ok, ks, hk, ?_⟩
      simp only [PcOk]
      refine ⟨forall₂_tail hF, hlen, hil', fun m hm => ?_, j, by omega, hcl, k, hkj, he⟩
      rcases (take_succ_mem hki).mp hm with h | rfl
      · exact hd m h
      · exact hlt
    · simp only [hlook] at hs; cases hs

theorem forall₂_snoc {fin : List Res} (r : Res) {fs : List Fut} {ks : List Nat} (h : List.Forall₂ (Stands fin) fs ks) :
    List.Forall₂ (Stands (fin ++ [r])) fs ks := h.imp (fun _ _ h => stands_snoc r h)

theorem inv_finish {s : Isl.State} (hi : IslInv s) {r : Res} (h : s.fin.length < s.enq) :
    IslInv { s with fin := s.fin ++ [r], log := s.log ++ [.finish r] } := by
  obtain ⟨ks, hk, hp⟩ := hi.kept
  have hlt : ∀ k, k < s.fin.length → k < (s.fin ++ [r]).length := by intro k hk; simp; omega
  refine ⟨by rw [hist_snoc]; exact hi.enq, by rw [hist_snoc]; simp only [Hist.add]; rw [hi.fin], by simp; omega,
    by rw [hist_snoc]; have := hi.since; simp [Hist.add]; omega, historyOk_snoc hi.ok trivial, ks, ?_, ?_⟩
  · rw [hist_snoc]; exact kept_fin_snoc hk r
  · unfold PcOk at hp ⊢
    cases hpc : s.pc with
    | ub => rw [hpc] at hp; exact hp.elim
    | out => rw [hpc] at hp; exact forall₂_snoc r hp
    | statusAt i err =>
      rw [hpc] at hp
      obtain ⟨hF, hil, hd, herr, before, during, hlog, hdur⟩ := hp
      refine ⟨forall₂_snoc r hF, hil, fun k hk => hlt k (hd k hk), herr.trans ?_, before, during ++ [.finish r], by simp [hlog], ?_⟩
      · constructor
        · rintro ⟨k, hk, e, he⟩; exact ⟨k, hk, e, snoc_get he r⟩
        · rintro ⟨k, hk, e, he⟩
          refine ⟨k, hk, e, ?_⟩
          rwa [List.getElem?_append_left (hd k hk)] at he
      · intro o ho
        rcases List.mem_append.mp ho with h | h
        · exact hdur o h
        · exact ⟨r, List.mem_singleton.mp h⟩
    | statusRet v =>
      rw [hpc] at hp
      obtain ⟨hF, before, d1, d2, hlog, hdur, hv⟩ := hp
      refine ⟨forall₂_snoc r hF, before, d1, d2 ++ [.finish r], by simp [hlog], ?_, hv⟩
      intro o ho
      rw [← List.append_assoc] at ho
      rcases List.mem_append.mp ho with h | h
      · exact hdur o h
      · exact ⟨r, List.mem_singleton.mp h⟩
    | waitAt i first =>
      rw [hpc] at hp
      obtain ⟨hF, hil, hd, hfst⟩ := hp
      refine ⟨forall₂_snoc r hF, hil, fun k hk => hlt k (hd k hk), ?_⟩
      cases first with
      | none => exact fun k hk => snoc_get (hfst k hk) r
      | some j =>
        obtain ⟨h1, h2, k, e, h3, h4⟩ := hfst
        exact ⟨h1, fun k hk => snoc_get (h2 k hk) r, k, e, h3, snoc_get h4 r⟩
    | checkAt i =>
      rw [hpc] at hp
      obtain ⟨hF, hlen, hil, hcl⟩ := hp
      exact ⟨forall₂_snoc r hF, hlen, hil, fun k hk => snoc_get (hcl k hk) r⟩
    | drainAt i e =>
      rw [hpc] at hp
      obtain ⟨hF, hlen, hil, hd, j, hji, hcl, k, hkj, he⟩ := hp
      exact ⟨forall₂_snoc r hF, hlen, hil, fun k hk => hlt k (hd k hk), j, hji, fun k hk => snoc_get (hcl k hk) r, k, hkj, snoc_get he r⟩

theorem inv_next {s s' : Isl.State} (hi : IslInv s) {e : Isl.Ev} (hs : next s e = some s') : IslInv s' := by
  obtain ⟨ks, hk, hp⟩ := hi.kept
  cases e with
  | evolve =>
    simp only [next] at hs
    split at hs
    · rename_i hpc
      unfold PcOk at hp
      rw [hpc] at hp
      cases hs
      refine ⟨by rw [hist_snoc]; simp only [Hist.add]; rw [hi.enq], by rw [hist_snoc]; exact hi.fin,
        Nat.le_succ_of_le hi.le, by rw [hist_snoc]; exact hi.since, historyOk_snoc hi.ok trivial, ks ++ [s.enq], ?_, ?_⟩
      · rw [hist_snoc]
        simp only [Hist.add]
        obtain ⟨base, h1, h2, h3, hh⟩ := hk
        have hr : List.range' base (s.enq - base) ++ [s.enq] = List.range' base (s.enq + 1 - base) := by
          rw [show s.enq + 1 - base = (s.enq - base) + 1 by omega, List.range'_concat]
          congr 2; omega
        rcases hh with ⟨rfl, hc⟩ | ⟨j, e, rfl, h4, h5, h6, hc⟩
        · exact ⟨base, h1, h2, by omega, Or.inl ⟨hr, hc⟩⟩
        · exact ⟨base, h1, h2, by omega, Or.inr ⟨j, e, by rw [List.cons_append, hr], h4, h5, h6, hc⟩⟩
      · simp only [PcOk, hpc]
        exact List.rel_append hp (List.Forall₂.cons (Or.inl rfl) List.Forall₂.nil)
    · cases hs
  | evolveFails e =>
    simp only [next] at hs
    split at hs
    · rename_i hpc
      cases hs
      refine ⟨by rw [hist_snoc]; exact hi.enq, by rw [hist_snoc]; exact hi.fin, hi.le, by rw [hist_snoc]; exact hi.since,
        historyOk_snoc hi.ok trivial, ks, by rw [hist_snoc]; exact hk, ?_⟩
      unfold PcOk at hp ⊢
      rw [hpc] at hp ⊢
      simpa using hp
    · cases hs
  | status =>
    simp only [next] at hs
    split at hs
    · rename_i hpc
      unfold PcOk at hp
      rw [hpc] at hp
      cases hs
      refine ⟨by rw [hist_snoc]; exact hi.enq, by rw [hist_snoc]; exact hi.fin, hi.le, by rw [hist_snoc]; exact hi.since,
        historyOk_snoc hi.ok trivial, ks, by rw [hist_snoc]; exact hk, ?_⟩
      simp only [PcOk]
      exact ⟨hp, Nat.zero_le _, by simp, by simp, s.log, [], by simp, by simp⟩
    · cases hs
  | wait =>
    simp only [next] at hs
    split at hs
    · rename_i hpc
      unfold PcOk at hp
      rw [hpc] at hp
      cases hs
      refine ⟨by rw [hist_snoc]; exact hi.enq, by rw [hist_snoc]; exact hi.fin, hi.le, by rw [hist_snoc]; exact hi.since,
        historyOk_snoc hi.ok trivial, ks, by rw [hist_snoc]; exact hk, ?_⟩
      simp only [PcOk]
      exact ⟨hp, Nat.zero_le _, by simp, by simp⟩
    · cases hs
  | waitCheck =>
    simp only [next] at hs
    split at hs
    · rename_i hpc
      unfold PcOk at hp
      rw [hpc] at hp
      cases hs
      refine ⟨by rw [hist_snoc]; exact hi.enq, by rw [hist_snoc]; exact hi.fin, hi.le, by rw [hist_snoc]; exact hi.since,
        historyOk_snoc hi.ok trivial, ks, by rw [hist_snoc]; exact hk, ?_⟩
      simp only [PcOk]
      exact ⟨by simpa using hp, hp.length_eq, Nat.zero_le _, by simp⟩
    · cases hs
  | finish r =>
    simp only [next] at hs
    split at hs
    · rename_i hlt
      cases hs
      exact inv_finish hi hlt
    · cases hs
  | step =>
    simp only [next] at hs
    cases hpc : s.pc with
    | out => rw [hpc] at hs; cases hs
    | ub => rw [hpc] at hs; cases hs
    | statusAt i err =>
      rw [hpc] at hs; cases hs
      exact inv_status hi hpc
    | statusRet v =>
      unfold PcOk at hp
      rw [hpc] at hs hp; cases hs
      exact ⟨by rw [hist_snoc]; exact hi.enq, by rw [hist_snoc]; exact hi.fin, hi.le, by rw [hist_snoc]; exact hi.since,
        historyOk_snoc hi.ok hp.2, ks, by rw [hist_snoc]; exact hk, hp.1⟩
    | waitAt i first => rw [hpc] at hs; exact inv_wait hi hpc hs
    | checkAt i => rw [hpc] at hs; exact inv_check hi hpc hs
    | drainAt i e => rw [hpc] at hs; exact inv_drain hi hpc hs

theorem inv_run {s s' : Isl.State} (hi : IslInv s) {es : List Isl.Ev} (hs : Isl.run s es = some s') : IslInv s' := by
  induction es generalizing s with
  | nil => simp only [Isl.run, Option.some.injEq] at hs; subst hs; exact hi
  | cons e es ih =>
    simp only [Isl.run] at hs
    split at hs
    · cases hs
    · rename_i s1 h1
      exact ih (inv_next hi h1) hs

/-! ## Theorems -/

/-- **C40.** In every execution every value returned by `status` is the documented status at some moment between the
call and the return. -/
theorem C40_status {es : List Isl.Ev} {s : Isl.State} (h : Isl.run Isl.init es = some s) (a b : List Isl.Obs) (v : Isl.Status)
    (hl : s.log = a ++ .statusRet v :: b) :
    ∃ before during1 during2, a = before ++ .statusCall :: (during1 ++ during2) ∧
      (∀ o ∈ during1 ++ during2, ∃ r, o = .finish r) ∧ v = (hist (before ++ .statusCall :: during1)).status :=
  (inv_run inv_init h).ok a _ b hl

/-- **C40.** When `wait` returns every enqueued evolution has finished. -/
theorem C40_wait {es : List Isl.Ev} {s : Isl.State} (h : Isl.run Isl.init es = some s) (a b : List Isl.Obs)
    (hl : s.log = a ++ .waitRet :: b) : (hist a).fin.length = (hist a).enq :=
  (inv_run inv_init h).ok a _ b hl

/-- **C40.** When `wait_check` returns or throws every enqueued evolution has finished; it throws exactly the first
exception of the evolutions enqueued since it last returned. -/
theorem C40_wait_check {es : List Isl.Ev} {s : Isl.State} (h : Isl.run Isl.init es = some s) (a b : List Isl.Obs) (r : Res)
    (hl : s.log = a ++ .checkRet r :: b) :
    (hist a).fin.length = (hist a).enq ∧ r = (hist a).firstError ∧ (hist (a ++ [.checkRet r])).status = .idle := by
  obtain ⟨h1, h2⟩ := (inv_run inv_init h).ok a _ b hl
  refine ⟨h1, h2, ?_⟩
  rw [hist_snoc]
  have h3 : ((hist a).add (.checkRet r)).firstError = none := by
    rw [firstError_none]
    intro k hk1 hk2
    simp only [Hist.add] at hk1 hk2
    omega
  have h4 : ((hist a).add (.checkRet r)).busy = false := by
    simp [Hist.busy, Hist.add, h1]
  unfold Hist.status
  rw [h3, h4]
  rfl

/-- **C40.** `wait` keeps the error: right after it `status` says `idle_error` exactly if some evolution enqueued since
`wait_check` last returned threw, and `wait_check` throws that exception. -/
theorem C40_wait_keeps {es : List Isl.Ev} {s : Isl.State} (h : Isl.run Isl.init es = some s) (a b : List Isl.Obs) :
    (∀ v, s.log = a ++ .waitRet :: .statusCall :: .statusRet v :: b →
      v = if (hist a).firstError.isSome then .idleError else .idle) ∧
    (∀ r, s.log = a ++ .waitRet :: .checkCall :: .checkRet r :: b → r = (hist a).firstError) := by
  refine ⟨fun v hl => ?_, fun r hl => ?_⟩
  · have hw := C40_wait h a _ hl
    obtain ⟨before, d1, d2, h1, h2, h3⟩ := C40_status h (a ++ [.waitRet, .statusCall]) b v (by rw [hl]; simp)
    have hd : d1 ++ d2 = [] := by
      rcases List.eq_nil_or_concat (d1 ++ d2) with hd | ⟨d, x, hd⟩
      · exact hd
      · rw [hd, List.concat_eq_append, show a ++ [Isl.Obs.waitRet, .statusCall] = (a ++ [.waitRet]) ++ [.statusCall] by simp,
          ← List.cons_append, ← List.append_assoc] at h1
        obtain ⟨-, h4⟩ := List.append_inj' h1 rfl
        obtain ⟨r, hr⟩ := h2 x (by rw [hd]; simp)
        subst hr; cases h4
    obtain ⟨rfl, rfl⟩ := List.append_eq_nil_iff.mp hd
    rw [← show a ++ [Isl.Obs.waitRet, .statusCall] = before ++ [.statusCall] from h1] at h3
    rw [h3, show a ++ [Isl.Obs.waitRet, .statusCall] = (a ++ [.waitRet]) ++ [.statusCall] by simp, hist_snoc, hist_snoc]
    simp only [Hist.add, Hist.status]
    have hb : (hist a).busy = false := by simp [Hist.busy, hw]
    rw [hb]
    cases (hist a).firstError <;> rfl
  · have := (C40_wait_check h (a ++ [.waitRet, .checkCall]) b r (by rw [hl]; simp)).2.1
    rw [show a ++ [Isl.Obs.waitRet, .checkCall] = (a ++ [.waitRet]) ++ [.checkCall] by simp, hist_snoc, hist_snoc] at this
    exact this

/-- **C40.** No future without shared state is ever used, and a call is blocked only while an evolution is running. -/
theorem C40_progress {es : List Isl.Ev} {s : Isl.State} (h : Isl.run Isl.init es = some s) :
    s.pc ≠ .ub ∧ (s.pc ≠ .out → next s .step = none → s.fin.length < s.enq) := by
  have hi := inv_run inv_init h
  obtain ⟨ks, hk, hp⟩ := hi.kept
  refine ⟨fun hu => ?_, fun ho hn => ?_⟩
  · unfold PcOk at hp; rw [hu] at hp; exact hp
  · simp only [next] at hn
    cases hpc : s.pc with
    | out => exact absurd hpc ho
    | ub => unfold PcOk at hp; rw [hpc] at hp; exact hp.elim
    | statusAt i err => rw [hpc] at hn; cases hn
    | statusRet v => rw [hpc] at hn; cases hn
    | waitAt i first =>
      unfold PcOk at hp
      rw [hpc] at hn hp
      simp only [waitStep] at hn
      split at hn
      · split at hn
        · cases hn
        · split at hn <;> cases hn
      · rename_i f hf
        obtain ⟨k, hki, hst⟩ := forall₂_get hp.1 hf
        rcases look_stands (s := s) hst with ⟨hlt, r, hr, hlook⟩ | ⟨hge, -, hlook⟩
        · rw [hlook] at hn; simp only at hn; split at hn <;> cases hn
        · have := kept_lt hk (List.mem_iff_getElem?.mpr ⟨i, hki⟩); omega
    | checkAt i =>
      unfold PcOk at hp
      rw [hpc] at hn hp
      simp only [checkStep] at hn
      split at hn
      · cases hn
      · rename_i f hf
        obtain ⟨k, hki, hst⟩ := forall₂_get hp.1 (drop_get hf)
        rcases look_stands (s := s) hst with ⟨hlt, r, hr, hlook⟩ | ⟨hge, -, hlook⟩
        · rw [hlook] at hn; cases r <;> cases hn
        · have := kept_lt hk (List.mem_of_mem_drop (List.mem_iff_getElem?.mpr ⟨0, hki⟩)); omega
    | drainAt i e =>
      unfold PcOk at hp
      rw [hpc] at hn hp
      simp only [drainStep] at hn
      split at hn
      · cases hn
      · rename_i f hf
        obtain ⟨k, hki, hst⟩ := forall₂_get hp.1 (drop_get hf)
        rcases look_stands (s := s) hst with ⟨hlt, r, hr, hlook⟩ | ⟨hge, -, hlook⟩
        · rw [hlook] at hn; cases hn
        · have := kept_lt hk (List.mem_of_mem_drop (List.mem_iff_getElem?.mpr ⟨0, hki⟩)); omega

/-- Three evolutions, the second fails; `status` while the third runs, `wait`, `status`, `wait_check`, `status`. -/
def islDemo : List Isl.Ev :=
  [.evolve, .evolve, .evolve, .finish none, .finish (some (.user 7)), .status, .step, .step, .step, .finish none, .step,
   .wait, .step, .step, .step, .step, .status, .step, .step, .step, .waitCheck, .step, .step, .status, .step, .step]

example : (Isl.run Isl.init islDemo).map (fun s => s.log) = some
    [.evolve, .evolve, .evolve, .finish none, .finish (some (.user 7)), .statusCall, .finish none, .statusRet .busyError,
     .waitCall, .waitRet, .statusCall, .statusRet .idleError, .checkCall, .checkRet (some (.user 7)), .statusCall, .statusRet .idle] := by
  decide +kernel

end Verif.Props
