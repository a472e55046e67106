import Verif.Model.Snapshot
import Mathlib.Data.List.Basic

/-!
# C44: `get_population` / `get_algorithm` return what was stored, in full
-/

set_option autoImplicit false

namespace Verif.Props

open Verif Snap

variable {α : Type}

/-- The value stored last. -/
def lastStored (v0 : List α) : List (Snap.Obs α) → List α
  | [] => v0
  | .stored _ v :: l => lastStored v l
  | .getCall _ :: l | .getRet _ _ :: l | .setCall _ _ :: l | .setRet _ :: l => lastStored v0 l

/-- The thread of an observation. -/
def obsBy : Snap.Obs α → Nat
  | .getCall t | .getRet t _ | .setCall t _ | .stored t _ | .setRet t => t

/-- What the documentation promises about the observation `o` after the history `l`. -/
def SnapOk (v0 : List α) (l : List (Snap.Obs α)) : Snap.Obs α → Prop
  | .getRet t v => ∃ b m1 m2, l = b ++ .getCall t :: (m1 ++ m2) ∧ (∀ o ∈ m1 ++ m2, obsBy o ≠ t) ∧
      v = lastStored v0 (b ++ .getCall t :: m1)
  | .stored t v => ∃ b m, l = b ++ .setCall t v :: m ∧ ∀ o ∈ m, obsBy o ≠ t
  | .setRet t => ∃ b v m1 m2, l = b ++ .setCall t v :: (m1 ++ .stored t v :: m2) ∧ ∀ o ∈ m1 ++ m2, obsBy o ≠ t
  | _ => True

/-- Every observation of the history is as promised. -/
def SnapHistoryOk (v0 : List α) (l : List (Snap.Obs α)) : Prop := ∀ a o b, l = a ++ o :: b → SnapOk v0 a o

theorem lastStored_append (v0 : List α) (a b : List (Snap.Obs α)) : lastStored v0 (a ++ b) = lastStored (lastStored v0 a) b := by
  induction a generalizing v0 with
  | nil => rfl
  | cons o a ih => cases o <;> simp only [List.cons_append, lastStored, ih]

theorem snapHistory_snoc {v0 : List α} {l : List (Snap.Obs α)} {o : Snap.Obs α} (h : SnapHistoryOk v0 l) (ho : SnapOk v0 l o) :
    SnapHistoryOk v0 (l ++ [o]) := by
  intro a o' b hl
  rcases List.eq_nil_or_concat b with rfl | ⟨b', x, rfl⟩
  · obtain ⟨h1, h2⟩ := List.append_inj' hl rfl
    cases h2; cases h1; exact ho
  · rw [List.concat_eq_append, ← List.cons_append, ← List.append_assoc] at hl
    obtain ⟨h1, -⟩ := List.append_inj' hl rfl
    exact h a o' b' h1

/-! ## Invariant -/

/-- References to the object at `a` a thread holds. -/
def refs (a : Nat) : Snap.Pc α → Nat
  | .getUnlock p | .getCopy p _ | .getDrop p _ => if p = a then 1 else 0
  | .setLock q _ | .setPtr q _ | .setInc q _ _ | .setDropNew q => if q = a then 1 else 0
  | .setInc2 q _ old | .setUnlock q old | .setDropOld q old => (if q = a then 1 else 0) + (if old = a then 1 else 0)
  | .setStore q _ old => (if q = a then 2 else 0) + (if old = a then 1 else 0)
  | .setDec q old => (if q = a then 1 else 0) + (if old = a then 2 else 0)
  | _ => 0

/-- In the critical section? -/
def _root_.Verif.Snap.Pc.inside : Snap.Pc α → Bool
  | .getPtr | .getInc _ | .getUnlock _ | .setPtr _ _ | .setInc _ _ _ | .setInc2 _ _ _ | .setStore _ _ _ | .setDec _ _ | .setUnlock _ _ => true
  | _ => false

def rcOf (s : Snap.State α) (a : Nat) : Nat :=
  match Snap.cell s a with
  | none => 0
  | some c => c.rc

def here (p a : Nat) : Nat := if p = a then 1 else 0

/-- Thread `t` has seen the pointer `p` while in a getter. -/
def Seen (v0 : List α) (dat : List (List α)) (l : List (Snap.Obs α)) (t p : Nat) : Prop :=
  ∃ b m1 m2, l = b ++ .getCall t :: (m1 ++ m2) ∧ (∀ o ∈ m1 ++ m2, obsBy o ≠ t) ∧
    dat[p]? = some (lastStored v0 (b ++ .getCall t :: m1))

def InSet (l : List (Snap.Obs α)) (t : Nat) (v : List α) : Prop := ∃ b m, l = b ++ .setCall t v :: m ∧ ∀ o ∈ m, obsBy o ≠ t

def HasStored (l : List (Snap.Obs α)) (t : Nat) : Prop :=
  ∃ b v m1 m2, l = b ++ .setCall t v :: (m1 ++ .stored t v :: m2) ∧ ∀ o ∈ m1 ++ m2, obsBy o ≠ t

/-- What is known of a thread; `dat` are the contents of all objects ever created. -/
def ThOk (v0 : List α) (dat : List (List α)) (l : List (Snap.Obs α)) (ptr t : Nat) : Snap.Pc α → Prop
  | .ub => False
  | .out => True
  | .getLock | .getPtr => ∃ b m, l = b ++ .getCall t :: m ∧ ∀ o ∈ m, obsBy o ≠ t
  | .getInc p => p = ptr ∧ Seen v0 dat l t p
  | .getUnlock p => Seen v0 dat l t p
  | .getCopy p acc => Seen v0 dat l t p ∧ ∃ d, dat[p]? = some d ∧ acc <+: d
  | .getDrop p acc => Seen v0 dat l t p ∧ dat[p]? = some acc
  | .setAlloc v => InSet l t v
  | .setLock q v | .setPtr q v => InSet l t v ∧ dat[q]? = some v
  | .setInc q v old | .setInc2 q v old | .setStore q v old => InSet l t v ∧ dat[q]? = some v ∧ old = ptr
  | .setDec _ _ | .setUnlock _ _ | .setDropOld _ _ | .setDropNew _ => HasStored l t

structure SnapInv (v0 : List α) (s : Snap.State α) (dat : List (List α)) : Prop where
  len : dat.length = s.heap.length
  cells : ∀ (a : Nat) (c : Snap.Cell α), Snap.cell s a = some c → dat[a]? = some c.data ∧ 1 ≤ c.rc
  count : ∀ a, rcOf s a = here s.ptr a + (s.threads.map (fun th => refs a th.pc)).sum
  ptr : dat[s.ptr]? = some (lastStored v0 s.log)
  th : ∀ (t : Nat) (th : Snap.Thread α), s.threads[t]? = some th → ThOk v0 dat s.log s.ptr t th.pc
  owner : ∀ (t : Nat) (th : Snap.Thread α), s.threads[t]? = some th → (th.pc.inside = true ↔ s.owner = some t)
  valid : ∀ t, s.owner = some t → t < s.threads.length
  ok : SnapHistoryOk v0 s.log

theorem sum_set_eq {β : Type} (f : β → Nat) (l : List β) (t : Nat) (x y : β) (h : l[t]? = some x) :
    ((l.set t y).map f).sum + f x = (l.map f).sum + f y := by
  induction l generalizing t with
  | nil => simp at h
  | cons a l ih =>
    cases t with
    | zero => simp at h; subst h; simp; omega
    | succ t => simp only [List.getElem?_cons_succ] at h; have := ih t h; simp only [List.set_cons_succ, List.map_cons, List.sum_cons]; omega

theorem le_sum_of_get {β : Type} (f : β → Nat) (l : List β) (t : Nat) (x : β) (h : l[t]? = some x) : f x ≤ (l.map f).sum := by
  induction l generalizing t with
  | nil => simp at h
  | cons a l ih =>
    cases t with
    | zero => simp at h; subst h; simp
    | succ t => simp at h; have := ih t h; simp; omega

/-- An object that is referred to is alive. -/
theorem snap_alive {v0 : List α} {s : Snap.State α} {dat : List (List α)} (hi : SnapInv v0 s dat) {t : Nat} {th : Snap.Thread α}
    (ht : s.threads[t]? = some th) {a : Nat} (h : 1 ≤ here s.ptr a + refs a th.pc) : ∃ c, Snap.cell s a = some c := by
  have h1 := hi.count a
  have h2 := le_sum_of_get (fun th : Snap.Thread α => refs a th.pc) s.threads t th ht
  unfold rcOf at h1
  cases hc : Snap.cell s a with
  | none => rw [hc] at h1; simp only at h1 h2; omega
  | some c => exact ⟨c, rfl⟩

theorem seen_mono {v0 : List α} {dat extra : List (List α)} {l os : List (Snap.Obs α)} {t p : Nat} (h : Seen v0 dat l t p)
    (hos : ∀ o ∈ os, obsBy o ≠ t) : Seen v0 (dat ++ extra) (l ++ os) t p := by
  obtain ⟨b, m1, m2, rfl, h2, h3⟩ := h
  refine ⟨b, m1, m2 ++ os, by simp, ?_, ?_⟩
  · intro o ho
    rw [← List.append_assoc] at ho
    rcases List.mem_append.mp ho with h | h
    · exact h2 o h
    · exact hos o h
  · rw [List.getElem?_append_left (List.getElem?_eq_some_iff.mp h3).1, h3]

theorem inSet_mono {l os : List (Snap.Obs α)} {t : Nat} {v : List α} (h : InSet l t v) (hos : ∀ o ∈ os, obsBy o ≠ t) :
    InSet (l ++ os) t v := by
  obtain ⟨b, m, rfl, h2⟩ := h
  refine ⟨b, m ++ os, by simp, fun o ho => ?_⟩
  rcases List.mem_append.mp ho with h | h
  · exact h2 o h
  · exact hos o h

theorem hasStored_mono {l os : List (Snap.Obs α)} {t : Nat} (h : HasStored l t) (hos : ∀ o ∈ os, obsBy o ≠ t) :
    HasStored (l ++ os) t := by
  obtain ⟨b, v, m1, m2, rfl, h2⟩ := h
  refine ⟨b, v, m1, m2 ++ os, by simp, fun o ho => ?_⟩
  rw [← List.append_assoc] at ho
  rcases List.mem_append.mp ho with h | h
  · exact h2 o h
  · exact hos o h

theorem dat_mono {dat extra : List (List α)} {q : Nat} {v : List α} (h : dat[q]? = some v) : (dat ++ extra)[q]? = some v := by
  rw [List.getElem?_append_left (List.getElem?_eq_some_iff.mp h).1, h]

theorem thOk_mono {v0 : List α} {dat extra : List (List α)} {l os : List (Snap.Obs α)} {ptr ptr' t : Nat} {pc : Snap.Pc α}
    (h : ThOk v0 dat l ptr t pc) (hos : ∀ o ∈ os, obsBy o ≠ t) (hp : ptr' = ptr ∨ pc.inside = false) :
    ThOk v0 (dat ++ extra) (l ++ os) ptr' t pc := by
  cases pc with
  | ub => exact h
  | out => trivial
  | getLock => obtain ⟨b, m, rfl, h2⟩ := h; exact ⟨b, m ++ os, by simp, fun o ho => (List.mem_append.mp ho).elim (h2 o) (hos o)⟩
  | getPtr => obtain ⟨b, m, rfl, h2⟩ := h; exact ⟨b, m ++ os, by simp, fun o ho => (List.mem_append.mp ho).elim (h2 o) (hos o)⟩
  | getInc p => rcases hp with rfl | hp; exact ⟨h.1, seen_mono h.2 hos⟩; cases hp
  | getUnlock p => exact seen_mono h hos
  | getCopy p acc => obtain ⟨h1, d, h2, h3⟩ := h; exact ⟨seen_mono h1 hos, d, dat_mono h2, h3⟩
  | getDrop p acc => exact ⟨seen_mono h.1 hos, dat_mono h.2⟩
  | setAlloc v => exact inSet_mono h hos
  | setLock q v => exact ⟨inSet_mono h.1 hos, dat_mono h.2⟩
  | setPtr q v => exact ⟨inSet_mono h.1 hos, dat_mono h.2⟩
  | setInc q v old => rcases hp with rfl | hp; exact ⟨inSet_mono h.1 hos, dat_mono h.2.1, h.2.2⟩; cases hp
  | setInc2 q v old => rcases hp with rfl | hp; exact ⟨inSet_mono h.1 hos, dat_mono h.2.1, h.2.2⟩; cases hp
  | setStore q v old => rcases hp with rfl | hp; exact ⟨inSet_mono h.1 hos, dat_mono h.2.1, h.2.2⟩; cases hp
  | setDec q old => exact hasStored_mono h hos
  | setUnlock q old => exact hasStored_mono h hos
  | setDropOld q old => exact hasStored_mono h hos
  | setDropNew q => exact hasStored_mono h hos

/-- How the mutex may change in a step of thread `t`. -/
def MutexMove (o o' : Option Nat) (t : Nat) (b b' : Bool) : Prop :=
  (o' = o ∧ b' = b) ∨ (o = none ∧ o' = some t ∧ b' = true) ∨ (b = true ∧ o' = none ∧ b' = false)

/-- A step of thread `t`. -/
theorem snap_move {v0 : List α} {s s' : Snap.State α} {dat : List (List α)} (extra : List (List α)) (os : List (Snap.Obs α))
    (hi : SnapInv v0 s dat) {t : Nat} {th th' : Snap.Thread α} (ht : s.threads[t]? = some th)
    (hth : s'.threads = s.threads.set t th') (hlen : (dat ++ extra).length = s'.heap.length)
    (hcells : ∀ (a : Nat) (c : Snap.Cell α), Snap.cell s' a = some c → (dat ++ extra)[a]? = some c.data ∧ 1 ≤ c.rc)
    (hcount : ∀ a, rcOf s' a + here s.ptr a + refs a th.pc = rcOf s a + here s'.ptr a + refs a th'.pc)
    (hlog : s'.log = s.log ++ os) (hos : ∀ o ∈ os, obsBy o = t) (hok : SnapHistoryOk v0 s'.log)
    (hptr : (dat ++ extra)[s'.ptr]? = some (lastStored v0 s'.log))
    (hown : ThOk v0 (dat ++ extra) s'.log s'.ptr t th'.pc)
    (hmut : MutexMove s.owner s'.owner t th.pc.inside th'.pc.inside)
    (hpm : s'.ptr = s.ptr ∨ th.pc.inside = true) : SnapInv v0 s' (dat ++ extra) := by
  have hlt := (List.getElem?_eq_some_iff.mp ht).1
  refine ⟨hlen, hcells, ?_, hptr, ?_, ?_, ?_, hok⟩
  · intro a
    have h1 := hi.count a
    have h2 := sum_set_eq (fun th : Snap.Thread α => refs a th.pc) s.threads t th th' ht
    have h3 := hcount a
    rw [hth]
    omega
  · intro u x hx
    rw [hth] at hx
    by_cases htu : t = u
    · subst htu; rw [List.getElem?_set_self hlt] at hx; cases hx; exact hown
    · rw [List.getElem?_set_ne htu] at hx
      rw [hlog]
      refine thOk_mono (hi.th u x hx) (fun o ho => by rw [hos o ho]; exact htu) ?_
      rcases hpm with h | h
      · exact Or.inl h
      · right
        rw [← Bool.not_eq_true]
        intro hu
        have h1 := (hi.owner t th ht).mp h
        have h2 := (hi.owner u x hx).mp hu
        rw [h1] at h2; cases h2; exact htu rfl
  · intro u x hx
    rw [hth] at hx
    have h1 := hi.owner t th ht
    by_cases htu : t = u
    · subst htu; rw [List.getElem?_set_self hlt] at hx; cases hx
      rcases hmut with ⟨h2, h3⟩ | ⟨h2, h3, h4⟩ | ⟨h2, h3, h4⟩
      · rw [h2, h3]; exact h1
      · rw [h3, h4]; simp
      · rw [h3, h4]; simp
    · rw [List.getElem?_set_ne htu] at hx
      have h0 := hi.owner u x hx
      rcases hmut with ⟨h2, h3⟩ | ⟨h2, h3, h4⟩ | ⟨h2, h3, h4⟩
      · rw [h2]; exact h0
      · rw [h0, h2, h3]; simp [htu]
      · rw [h0, h3, h1.mp h2]; simp [htu]
  · intro u hu
    rw [hth, List.length_set]
    rcases hmut with ⟨h2, h3⟩ | ⟨h2, h3, h4⟩ | ⟨h2, h3, h4⟩
    · exact hi.valid u (by rw [← h2]; exact hu)
    · rw [h3] at hu; cases hu; exact hlt
    · rw [h3] at hu; cases hu

theorem cell_lt {s : Snap.State α} {p : Nat} {c : Snap.Cell α} (h : Snap.cell s p = some c) : p < s.heap.length := by
  unfold Snap.cell at h
  by_contra hn
  rw [List.getElem?_eq_none (by omega)] at h
  cases h

/-- Changing the count of the object at `p`. -/
theorem cell_set {s : Snap.State α} {p : Nat} {c : Snap.Cell α} (h : Snap.cell s p = some c) (x : Option (Snap.Cell α)) (a : Nat) :
    ((s.heap.set p x)[a]?).join = if p = a then x else Snap.cell s a := by
  have := cell_lt h
  by_cases hpa : p = a
  · subst hpa; rw [List.getElem?_set_self this]; simp
  · rw [List.getElem?_set_ne hpa, if_neg hpa]; rfl

/-- A step that keeps heap, pointer and log. -/
theorem snap_local {v0 : List α} {s : Snap.State α} {dat : List (List α)} (hi : SnapInv v0 s dat) {t : Nat} {th : Snap.Thread α}
    (ht : s.threads[t]? = some th) (o' : Option Nat) (pc : Snap.Pc α) (hr : ∀ a, refs a pc = refs a th.pc)
    (hown : ThOk v0 dat s.log s.ptr t pc) (hmut : MutexMove s.owner o' t th.pc.inside pc.inside) :
    SnapInv v0 { s with owner := o', threads := s.threads.set t { th with pc := pc } } dat := by
  have := snap_move (s' := { s with owner := o', threads := s.threads.set t { th with pc := pc } }) [] [] hi ht rfl
    (by simpa using hi.len) (by rw [List.append_nil]; exact hi.cells) (by intro a; simp only [hr a]; rfl) (by simp) (by simp) hi.ok
    (by simpa using hi.ptr) (by simpa using hown) hmut (Or.inl rfl)
  simpa using this

/-- A step that increments a count. -/
theorem snap_inc {v0 : List α} {s : Snap.State α} {dat : List (List α)} (hi : SnapInv v0 s dat) {t : Nat} {th : Snap.Thread α}
    (ht : s.threads[t]? = some th) (p : Nat) (pc : Snap.Pc α) (hal : 1 ≤ here s.ptr p + refs p th.pc)
    (hr : ∀ a, refs a pc = refs a th.pc + here p a)
    (hown : ThOk v0 dat s.log s.ptr t pc) (hins : pc.inside = th.pc.inside) :
    SnapInv v0 (Snap.orUb s t th (Snap.inc s p) pc) dat := by
  obtain ⟨c, hc⟩ := snap_alive hi ht hal
  unfold Snap.inc
  rw [hc]
  simp only [Snap.orUb, Snap.goto]
  have := snap_move (s' := { s with heap := s.heap.set p (some { c with rc := c.rc + 1 }), threads := s.threads.set t { th with pc := pc } })
    (th' := { th with pc := pc }) [] [] hi ht rfl
    (by simpa using hi.len) (by
      intro a c' hc'
      unfold Snap.cell at hc'
      simp only [cell_set hc] at hc'
      split at hc'
      · rename_i hpa; subst hpa; cases hc'; exact ⟨by simpa using (hi.cells p c hc).1, by simp⟩
      · simpa using hi.cells a c' hc')
    (by
      intro a
      have : rcOf { s with heap := s.heap.set p (some { c with rc := c.rc + 1 }), threads := s.threads.set t { th with pc := pc } } a
          = rcOf s a + here p a := by
        unfold rcOf
        have e : Snap.cell { s with heap := s.heap.set p (some { c with rc := c.rc + 1 }), threads := s.threads.set t { th with pc := pc } } a
          = if p = a then some { c with rc := c.rc + 1 } else Snap.cell s a := cell_set hc _ a
        rw [e]
        by_cases hpa : p = a
        · subst hpa; rw [if_pos rfl, hc]; simp [here]
        · rw [if_neg hpa]; simp [here, hpa]
      rw [this, hr a]; simp only; omega) (by simp) (by simp) hi.ok
    (by simpa using hi.ptr) (by simpa using hown) (Or.inl ⟨rfl, hins⟩) (Or.inl rfl)
  simpa using this

/-- A step that decrements a count. -/
theorem snap_dec {v0 : List α} {s : Snap.State α} {dat : List (List α)} (hi : SnapInv v0 s dat) {t : Nat} {th : Snap.Thread α}
    (ht : s.threads[t]? = some th) (os : List (Snap.Obs α)) (hls : lastStored v0 (s.log ++ os) = lastStored v0 s.log)
    (hos : ∀ o ∈ os, obsBy o = t) (hok : SnapHistoryOk v0 (s.log ++ os)) (p : Nat) (pc : Snap.Pc α)
    (hr : ∀ a, refs a pc + here p a = refs a th.pc)
    (hown : ThOk v0 dat (s.log ++ os) s.ptr t pc) (hins : pc.inside = th.pc.inside) :
    SnapInv v0 (Snap.orUb s t th (Snap.dec { s with log := s.log ++ os } p) pc) dat := by
  obtain ⟨c, hc⟩ := snap_alive hi ht (a := p) (by rw [← hr p]; simp [here]; omega)
  unfold Snap.dec
  have hc2 : Snap.cell { s with log := s.log ++ os } p = some c := hc
  rw [hc2]
  simp only [Snap.orUb, Snap.goto]
  have hcs : ∀ a, Snap.cell { s with heap := s.heap.set p (if c.rc ≤ 1 then none else some { c with rc := c.rc - 1 }), log := s.log ++ os, threads := s.threads.set t { th with pc := pc } } a = if p = a then (if c.rc ≤ 1 then none else some { c with rc := c.rc - 1 }) else Snap.cell s a :=
    fun a => cell_set hc _ a
  have := snap_move (s' := { s with heap := s.heap.set p (if c.rc ≤ 1 then none else some { c with rc := c.rc - 1 }), log := s.log ++ os, threads := s.threads.set t { th with pc := pc } }) (th' := { th with pc := pc }) [] os hi ht rfl
    (by simpa using hi.len) (by
      intro a c' hc'
      rw [hcs a] at hc'
      split at hc'
      · rename_i hpa; subst hpa
        split at hc'
        · cases hc'
        · cases hc'; exact ⟨by simpa using (hi.cells p c hc).1, by simp only; omega⟩
      · simpa using hi.cells a c' hc')
    (by
      intro a
      unfold rcOf
      rw [hcs a]
      have h1 := (hi.cells p c hc).2
      have h2 := hr a
      by_cases hpa : p = a
      · subst hpa
        rw [if_pos rfl, hc]
        have : here p p = 1 := by simp [here]
        simp only
        split
        · rename_i hn; split at hn
          · omega
          · cases hn
        · rename_i hn; split at hn
          · cases hn
          · cases hn; simp only; omega
      · rw [if_neg hpa]
        have : here p a = 0 := by simp [here, hpa]
        simp only; omega) rfl hos hok
    (by simp only [List.append_nil, hls]; exact hi.ptr) (by simpa using hown) (Or.inl ⟨rfl, hins⟩) (Or.inl rfl)
  simpa using this

theorem snap_step {v0 : List α} {s s' : Snap.State α} {dat : List (List α)} (hi : SnapInv v0 s dat) {t : Nat}
    (h : Snap.step s t = some s') : ∃ dat', SnapInv v0 s' dat' := by
  unfold Snap.step at h
  cases ht : s.threads[t]? with
  | none => rw [ht] at h; cases h
  | some th =>
    rw [ht] at h
    simp only at h
    have hT := hi.th t th ht
    have hO := hi.owner t th ht
    cases hpc : th.pc with
    | ub => rw [hpc] at hT; exact hT.elim
    | out =>
      rw [hpc] at h
      simp only at h
      cases hp : th.prog with
      | nil => rw [hp] at h; cases h
      | cons c p =>
        rw [hp] at h
        cases c with
        | get =>
          simp only [Snap.goto, Option.some.injEq] at h
          subst h
          refine ⟨dat ++ [], snap_move (th' := { th with pc := .getLock, prog := p }) [] [.getCall t] hi ht rfl (by simpa using hi.len)
            (by rw [List.append_nil]; exact hi.cells) (by intro a; simp only [refs, hpc]; rfl) rfl (by simp [obsBy])
            (snapHistory_snoc hi.ok trivial) ?_ ⟨s.log, [], by simp, by simp⟩ (Or.inl ⟨rfl, by rw [hpc]; rfl⟩) (Or.inl rfl)⟩
          rw [List.append_nil, lastStored_append]; exact hi.ptr
        | set v =>
          simp only [Snap.goto, Option.some.injEq] at h
          subst h
          refine ⟨dat ++ [], snap_move (th' := { th with pc := .setAlloc v, prog := p }) [] [.setCall t v] hi ht rfl (by simpa using hi.len)
            (by rw [List.append_nil]; exact hi.cells) (by intro a; simp only [refs, hpc]; rfl) rfl (by simp [obsBy])
            (snapHistory_snoc hi.ok trivial) ?_ ⟨s.log, [], by simp, by simp⟩ (Or.inl ⟨rfl, by rw [hpc]; rfl⟩) (Or.inl rfl)⟩
          rw [List.append_nil, lastStored_append]; exact hi.ptr
    | getLock =>
      rw [hpc] at h hT
      simp only [Snap.goto] at h
      split at h
      · rename_i ho; cases h
        exact ⟨dat, snap_local hi ht (some t) .getPtr (by intro a; rw [hpc]; rfl) hT (Or.inr (Or.inl ⟨ho, rfl, rfl⟩))⟩
      · cases h
    | getPtr =>
      rw [hpc] at h hT
      simp only [Snap.goto, Option.some.injEq] at h
      subst h
      refine ⟨dat, snap_local hi ht s.owner (.getInc s.ptr) (by intro a; rw [hpc]; rfl) ⟨rfl, ?_⟩ (Or.inl ⟨rfl, by rw [hpc]; rfl⟩)⟩
      obtain ⟨b, m, h1, h2⟩ := hT
      exact ⟨b, m, [], by simpa using h1, by simpa using h2, by rw [← h1]; exact hi.ptr⟩
    | getInc p =>
      rw [hpc] at h hT
      simp only [Option.some.injEq] at h
      subst h
      exact ⟨dat, snap_inc hi ht p _ (by rw [hT.1]; simp [here]) (by intro a; rw [hpc]; simp [refs, here]) hT.2 (by rw [hpc]; rfl)⟩
    | getUnlock p =>
      rw [hpc] at h hT
      simp only [Snap.goto, Option.some.injEq] at h
      subst h
      refine ⟨dat, snap_local hi ht none (.getCopy p []) (by intro a; rw [hpc]; rfl) ⟨hT, ?_⟩ (Or.inr (Or.inr ⟨by rw [hpc]; rfl, rfl, rfl⟩))⟩
      obtain ⟨b, m1, m2, -, -, h3⟩ := hT
      exact ⟨_, h3, List.nil_prefix⟩
    | getCopy p acc =>
      rw [hpc] at h hT
      simp only [Option.some.injEq] at h
      subst h
      obtain ⟨hseen, d, hd, hpre⟩ := hT
      obtain ⟨c, hc⟩ := snap_alive hi ht (a := p) (by rw [hpc]; simp [refs])
      have hcd := (hi.cells p c hc).1
      rw [hd] at hcd
      cases hcd
      unfold Snap.copyStep
      rw [hc]
      simp only
      cases hx : c.data[acc.length]? with
      | none =>
        refine ⟨dat, snap_local hi ht s.owner (.getDrop p acc) (by intro a; rw [hpc]; rfl) ⟨hseen, ?_⟩ (Or.inl ⟨rfl, by rw [hpc]; rfl⟩)⟩
        rw [hd]
        congr 1
        exact (hpre.eq_of_length (Nat.le_antisymm hpre.length_le (List.getElem?_eq_none_iff.mp hx))).symm
      | some x =>
        refine ⟨dat, snap_local hi ht s.owner (.getCopy p (acc ++ [x])) (by intro a; rw [hpc]; rfl) ⟨hseen, c.data, hd, ?_⟩ (Or.inl ⟨rfl, by rw [hpc]; rfl⟩)⟩
        obtain ⟨r, hr⟩ := hpre
        rw [← hr, List.getElem?_append_right (Nat.le_refl _), Nat.sub_self] at hx
        cases r with
        | nil => cases hx
        | cons y r => simp at hx; subst hx; exact ⟨r, by rw [← hr]; simp⟩
    | getDrop p acc =>
      rw [hpc] at h hT
      simp only [Option.some.injEq] at h
      subst h
      obtain ⟨⟨b, m1, m2, h1, h2, h3⟩, h4⟩ := hT
      refine ⟨dat, snap_dec hi ht [.getRet t acc] (by rw [lastStored_append]; rfl) (by simp [obsBy])
        (snapHistory_snoc hi.ok ⟨b, m1, m2, h1, h2, ?_⟩) p _ (by intro a; rw [hpc]; simp [refs, here]) trivial (by rw [hpc]; rfl)⟩
      rw [h4] at h3; exact Option.some.inj h3
    | setAlloc v =>
      rw [hpc] at h hT
      simp only [Snap.goto, Option.some.injEq] at h
      subst h
      have hcs : ∀ (s' : Snap.State α), s'.heap = s.heap ++ [some ⟨v, 1⟩] → ∀ a, Snap.cell s' a =
          if a = s.heap.length then some ⟨v, 1⟩ else Snap.cell s a := by
        intro s' hs' a
        unfold Snap.cell
        rw [hs']
        by_cases ha : a = s.heap.length
        · subst ha; simp
        · rw [if_neg ha]
          by_cases hlt : a < s.heap.length
          · rw [List.getElem?_append_left hlt]
          · rw [List.getElem?_eq_none (by simp; omega), List.getElem?_eq_none (by omega)]
      have hdead : Snap.cell s s.heap.length = none := by unfold Snap.cell; rw [List.getElem?_eq_none (Nat.le_refl _)]; rfl
      refine ⟨dat ++ [v], snap_move (th' := { th with pc := .setLock s.heap.length v }) [v] [] hi ht rfl (by simp [hi.len]) ?_ ?_ (by simp) (by simp)
        hi.ok (by simpa using dat_mono hi.ptr) ⟨hT, by simp [← hi.len]⟩ (Or.inl ⟨rfl, by rw [hpc]; rfl⟩) (Or.inl rfl)⟩
      · intro a c hc
        rw [hcs _ rfl a] at hc
        split at hc
        · rename_i ha; cases hc; subst ha; exact ⟨by simp [← hi.len], Nat.le_refl _⟩
        · exact ⟨dat_mono (hi.cells a c hc).1, (hi.cells a c hc).2⟩
      · intro a
        unfold rcOf
        rw [hcs _ rfl a, hpc]
        by_cases ha : a = s.heap.length
        · subst ha; rw [if_pos rfl, hdead]; simp [refs]; omega
        · rw [if_neg ha]; simp [refs]
          intro h; exact absurd h.symm ha
    | setLock q v =>
      rw [hpc] at h hT
      simp only [Snap.goto] at h
      split at h
      · rename_i ho; cases h
        exact ⟨dat, snap_local hi ht (some t) (.setPtr q v) (by intro a; rw [hpc]; rfl) hT (Or.inr (Or.inl ⟨ho, rfl, rfl⟩))⟩
      · cases h
    | setPtr q v =>
      rw [hpc] at h hT
      simp only [Snap.goto, Option.some.injEq] at h
      subst h
      exact ⟨dat, snap_local hi ht s.owner (.setInc q v s.ptr) (by intro a; rw [hpc]; rfl) ⟨hT.1, hT.2, rfl⟩ (Or.inl ⟨rfl, by rw [hpc]; rfl⟩)⟩
    | setInc q v old =>
      rw [hpc] at h hT
      simp only [Option.some.injEq] at h
      subst h
      exact ⟨dat, snap_inc hi ht old _ (by rw [hT.2.2]; simp [here]) (by intro a; rw [hpc]; simp [refs, here]) hT (by rw [hpc]; rfl)⟩
    | setInc2 q v old =>
      rw [hpc] at h hT
      simp only [Option.some.injEq] at h
      subst h
      refine ⟨dat, snap_inc hi ht q _ (by rw [hpc]; simp [refs]; omega) (fun a => ?_) hT (by rw [hpc]; rfl)⟩
      rw [hpc]; simp only [refs, here]; split <;> omega
    | setStore q v old =>
      rw [hpc] at h hT
      simp only [Snap.goto, Option.some.injEq] at h
      subst h
      obtain ⟨⟨b, m, h1, h2⟩, h3, h4⟩ := hT
      refine ⟨dat ++ [], snap_move (th' := { th with pc := .setDec q old }) [] [.stored t v] hi ht rfl (by simpa using hi.len)
        (by rw [List.append_nil]; exact hi.cells) (fun a => ?_) rfl (by simp [obsBy]) (snapHistory_snoc hi.ok ⟨b, m, h1, h2⟩) ?_ ?_
        (Or.inl ⟨rfl, by rw [hpc]; rfl⟩) (Or.inr (by rw [hpc]; rfl))⟩
      · rw [hpc, h4]
        have e : rcOf { s with ptr := q, log := s.log ++ [.stored t v], threads := s.threads.set t { th with pc := .setDec q s.ptr } } a = rcOf s a := rfl
        simp only [refs, here] at e ⊢
        rw [e]
        by_cases h5 : q = a <;> by_cases h6 : s.ptr = a <;> simp [h5, h6] <;> omega
      · rw [List.append_nil, lastStored_append]; exact h3
      · refine ⟨b, v, m, [], by simp [h1], by simpa using h2⟩
    | setDec q old =>
      rw [hpc] at h hT
      simp only [Option.some.injEq] at h
      subst h
      have := snap_dec hi ht [] (by simp) (by simp) (by simpa using hi.ok) old (.setUnlock q old)
        (by intro a; rw [hpc]; simp only [refs, here]; split <;> split <;> omega) (by rw [List.append_nil]; exact hT) (by rw [hpc]; rfl)
      simp only [List.append_nil] at this
      exact ⟨dat, this⟩
    | setUnlock q old =>
      rw [hpc] at h hT
      simp only [Snap.goto, Option.some.injEq] at h
      subst h
      exact ⟨dat, snap_local hi ht none (.setDropOld q old) (by intro a; rw [hpc]; rfl) hT (Or.inr (Or.inr ⟨by rw [hpc]; rfl, rfl, rfl⟩))⟩
    | setDropOld q old =>
      rw [hpc] at h hT
      simp only [Option.some.injEq] at h
      subst h
      have := snap_dec hi ht [] (by simp) (by simp) (by simpa using hi.ok) old (.setDropNew q)
        (by intro a; rw [hpc]; simp only [refs, here]) (by rw [List.append_nil]; exact hT) (by rw [hpc]; rfl)
      simp only [List.append_nil] at this
      exact ⟨dat, this⟩
    | setDropNew q =>
      rw [hpc] at h hT
      simp only [Option.some.injEq] at h
      subst h
      exact ⟨dat, snap_dec hi ht [.setRet t] (by rw [lastStored_append]; rfl) (by simp [obsBy])
        (snapHistory_snoc hi.ok hT) q _ (by intro a; rw [hpc]; simp [refs, here]) trivial (by rw [hpc]; rfl)⟩

theorem snap_init (v0 : List α) (progs : List (List (Snap.Cl α))) : SnapInv v0 (Snap.init v0 progs) [v0] := by
  have hpc : ∀ (t : Nat) (th : Snap.Thread α), (Snap.init v0 progs).threads[t]? = some th → th.pc = .out := by
    intro t th h
    simp only [Snap.init, List.getElem?_map, Option.map_eq_some_iff] at h
    obtain ⟨p, -, rfl⟩ := h; rfl
  refine ⟨rfl, ?_, ?_, rfl, ?_, ?_, by simp [Snap.init], by intro a o b h; simp [Snap.init] at h⟩
  · intro a c hc
    unfold Snap.cell at hc
    simp only [Snap.init] at hc
    cases a with
    | zero => simp at hc; subst hc; exact ⟨rfl, Nat.le_refl _⟩
    | succ a => simp at hc
  · intro a
    have hz : ∀ l : List (List (Snap.Cl α)), ((l.map (fun p => (⟨.out, p⟩ : Snap.Thread α))).map (fun th => refs a th.pc)).sum = 0 := by
      intro l; induction l with
      | nil => rfl
      | cons x l ih => rw [List.map_cons, List.map_cons, List.sum_cons, ih]; rfl
    unfold rcOf Snap.cell
    simp only [Snap.init, hz]
    cases a with
    | zero => simp [here]
    | succ a => simp [here]
  · intro t th h; rw [hpc t th h]; trivial
  · intro t th h; rw [hpc t th h]; simp [Snap.init, Snap.Pc.inside]

theorem snap_run (v0 : List α) (progs : List (List (Snap.Cl α))) {ts : List Nat} {s : Snap.State α}
    (h : Snap.run (Snap.init v0 progs) ts = some s) : ∃ dat, SnapInv v0 s dat := by
  have key : ∀ (ts : List Nat) (s s' : Snap.State α), (∃ dat, SnapInv v0 s dat) → Snap.run s ts = some s' → ∃ dat, SnapInv v0 s' dat := by
    intro ts
    induction ts with
    | nil => intro s s' hi h; simp only [Snap.run, Option.some.injEq] at h; subst h; exact hi
    | cons t ts ih =>
      intro s s' hi h
      simp only [Snap.run] at h
      split at h
      · cases h
      · rename_i s1 h1
        obtain ⟨dat, hi⟩ := hi
        exact ih s1 s' (snap_step hi h1) h
  exact key ts _ s ⟨_, snap_init v0 progs⟩ h

/-! ## Theorems -/

/-- **C44.** Every value a getter returns is, in full, the value stored last at some moment between its call and its
return. -/
theorem C44_get (v0 : List α) (progs : List (List (Snap.Cl α))) {ts : List Nat} {s : Snap.State α}
    (h : Snap.run (Snap.init v0 progs) ts = some s) (a c : List (Snap.Obs α)) (t : Nat) (v : List α) (hl : s.log = a ++ .getRet t v :: c) :
    ∃ b m1 m2, a = b ++ .getCall t :: (m1 ++ m2) ∧ (∀ o ∈ m1 ++ m2, obsBy o ≠ t) ∧ v = lastStored v0 (b ++ .getCall t :: m1) := by
  obtain ⟨dat, hi⟩ := snap_run v0 progs h
  exact hi.ok a _ c hl

/-- **C44.** Between the call and the return of a setter its value is stored exactly once, and nothing is stored that no
setter was called with. -/
theorem C44_set (v0 : List α) (progs : List (List (Snap.Cl α))) {ts : List Nat} {s : Snap.State α}
    (h : Snap.run (Snap.init v0 progs) ts = some s) (a c : List (Snap.Obs α)) (t : Nat) :
    (∀ v, s.log = a ++ .stored t v :: c → ∃ b m, a = b ++ .setCall t v :: m ∧ ∀ o ∈ m, obsBy o ≠ t) ∧
    (s.log = a ++ .setRet t :: c → ∃ b v m1 m2, a = b ++ .setCall t v :: (m1 ++ .stored t v :: m2) ∧ ∀ o ∈ m1 ++ m2, obsBy o ≠ t) := by
  obtain ⟨dat, hi⟩ := snap_run v0 progs h
  exact ⟨fun v hl => hi.ok a _ c hl, fun hl => hi.ok a _ c hl⟩

/-- **C44.** No destroyed object is used. -/
theorem C44_no_ub (v0 : List α) (progs : List (List (Snap.Cl α))) {ts : List Nat} {s : Snap.State α}
    (h : Snap.run (Snap.init v0 progs) ts = some s) (t : Nat) (th : Snap.Thread α) (ht : s.threads[t]? = some th) : ∀ x, th.pc = x → x ≠ .ub := by
  obtain ⟨dat, hi⟩ := snap_run v0 progs h
  rintro x hx rfl
  have := hi.th t th ht
  rw [hx] at this
  exact this

/-- **C44.** When no call is in progress the only object alive is the one the island points to; it holds the value
stored last. -/
theorem C44_no_leak (v0 : List α) (progs : List (List (Snap.Cl α))) {ts : List Nat} {s : Snap.State α}
    (h : Snap.run (Snap.init v0 progs) ts = some s) (hidle : ∀ th ∈ s.threads, th.pc = .out) :
    ∃ c, Snap.cell s s.ptr = some c ∧ c.rc = 1 ∧ c.data = lastStored v0 s.log ∧ ∀ a, a ≠ s.ptr → Snap.cell s a = none := by
  obtain ⟨dat, hi⟩ := snap_run v0 progs h
  have hz : ∀ a, (s.threads.map (fun th => refs a th.pc)).sum = 0 := by
    intro a
    have : ∀ l : List (Snap.Thread α), (∀ th ∈ l, th.pc = .out) → (l.map (fun th => refs a th.pc)).sum = 0 := by
      intro l
      induction l with
      | nil => intro _; rfl
      | cons x l ih =>
        intro hl
        rw [List.map_cons, List.sum_cons, ih (fun th hth => hl th (List.mem_cons_of_mem _ hth)), hl x (List.mem_cons_self ..)]; rfl
    exact this _ hidle
  have h1 := hi.count s.ptr
  rw [hz] at h1
  unfold rcOf at h1
  cases hc : Snap.cell s s.ptr with
  | none => rw [hc] at h1; simp [here] at h1
  | some c =>
    rw [hc] at h1
    refine ⟨c, rfl, by simpa [here] using h1, ?_, ?_⟩
    · have := (hi.cells _ c hc).1
      rw [hi.ptr] at this; exact (Option.some.inj this).symm
    · intro a ha
      have h2 := hi.count a
      rw [hz] at h2
      cases hca : Snap.cell s a with
      | none => rfl
      | some c' =>
        unfold rcOf at h2
        rw [hca] at h2
        have := (hi.cells a c' hca).2
        rw [show here s.ptr a = 0 from if_neg (Ne.symm ha)] at h2
        simp only at h2
        omega

/-- **C44.** Nobody waits forever for the mutex: if a call is unfinished, some thread can move. -/
theorem C44_progress (v0 : List α) (progs : List (List (Snap.Cl α))) {ts : List Nat} {s : Snap.State α}
    (h : Snap.run (Snap.init v0 progs) ts = some s) (t : Nat) (th : Snap.Thread α) (ht : s.threads[t]? = some th)
    (hw : (∀ x, th.pc = x → x ≠ .out) ∨ th.prog ≠ []) : ∃ u, (Snap.step s u).isSome := by
  obtain ⟨dat, hi⟩ := snap_run v0 progs h
  cases ho : s.owner with
  | some u =>
    refine ⟨u, ?_⟩
    have hu := List.getElem?_eq_getElem (hi.valid u ho)
    have := (hi.owner u _ hu).mpr ho
    unfold Snap.step
    rw [hu]
    simp only
    revert this
    cases (s.threads[u]'(hi.valid u ho)).pc <;> simp [Snap.Pc.inside]
  | none =>
    refine ⟨t, ?_⟩
    have hT := hi.th t th ht
    unfold Snap.step
    rw [ht]
    simp only [ho, if_true]
    cases hpc : th.pc with
    | ub => rw [hpc] at hT; exact hT.elim
    | out =>
      simp only
      cases hp : th.prog with
      | nil => rw [hp] at hw; rcases hw with h | h; exact absurd rfl (h _ hpc); exact absurd rfl h
      | cons c p => cases c <;> simp
    | _ => simp

/-- A getter that copies while a setter replaces and releases the object. -/
example : (Snap.run (Snap.init [1, 2] [[.get], [.set [3, 4]], [.get]])
    ([0, 1, 0, 0, 0, 0, 0] ++ [1, 1, 1, 1, 1, 1, 1, 1, 1, 1] ++ [0, 2, 2, 2, 2, 2] ++ [0, 0] ++ [2, 2, 2, 2])).map (fun s => s.log) =
    some [.getCall 0, .setCall 1 [3, 4], .stored 1 [3, 4], .setRet 1, .getCall 2, .getRet 0 [1, 2], .getRet 2 [3, 4]] := by
  decide +kernel

end Verif.Props
