import Verif.Props.Migration

/-!
# C41: number of rounds of an evolution task
-/

set_option autoImplicit false

namespace Verif.Props

open Verif Migr

variable {X : Type}

/-- The task of island `i`: the number of rounds asked for and the number of groups placed in the database so far;
`none` if it is not evolving. -/
def taskStep (i : Nat) (t : Option (Nat × Nat)) : Migr.Obs X → Option (Nat × Nat)
  | .start j n => if j = i then some (n, 0) else t
  | .put j _ => if j = i then t.map (fun p => (p.1, p.2 + 1)) else t
  | .ended j _ => if j = i then none else t
  | _ => t

def taskOf (i : Nat) (l : List (Migr.Obs X)) : Option (Nat × Nat) := l.foldl (taskStep i) none

/-- A task ends normally after all its rounds, otherwise before. -/
def EndOk (l : List (Migr.Obs X)) : Migr.Obs X → Prop
  | .ended i none => ∃ n, taskOf i l = some (n, n)
  | .ended i (some _) => ∃ n p, taskOf i l = some (n, p) ∧ p < n
  | .start i _ => taskOf i l = none
  | _ => True

/-- the rounds left -/
def roundsLeft : Migr.Pc X → Nat
  | .idle => 0
  | .top k | .mtype k _ | .handling k _ _ | .pick k _ _ | .cast k _ _ _ _ | .fetchLock k _ | .fetchCheck k _ | .fetch0 k _
  | .fetch1 k _ _ | .fetch2 k _ _ _ | .clear0 k _ _ | .clear1 k _ _ | .clear2 k _ _ | .fetchUnlock k _ _ | .replace k _
  | .setInds k _ _ | .append k _ _ | .evolve k | .select k | .putLock k _ | .putCheck k _ | .put0 k _ | .put1 k _ | .put2 k _
  | .putUnlock k _ => k

def PlaceOk (t : Option (Nat × Nat)) : Migr.Pc X → Prop
  | .idle => t = none
  | .top k => ∃ p, t = some (p + k, p)
  | pc => 0 < roundsLeft pc ∧ ∃ p, t = some (p + roundsLeft pc, p)

structure RoundsInv (s : Migr.State X) : Prop where
  ok : ∀ a o b, s.log = a ++ o :: b → EndOk a o
  pcs : ∀ (i : Nat) (pc : Migr.Pc X), s.islands[i]? = some pc → PlaceOk (taskOf i s.log) pc

theorem taskOf_append (i : Nat) (l m : List (Migr.Obs X)) : taskOf i (l ++ m) = m.foldl (taskStep i) (taskOf i l) := by
  simp [taskOf]

/-- what a step of island `i` does -/
structure RoundsMove (s s' : Migr.State X) (i : Nat) (pc pc' : Migr.Pc X) (os : List (Migr.Obs X)) : Prop where
  isl : s'.islands = s.islands.set i pc'
  log : s'.log = s.log ++ os
  place : PlaceOk (taskOf i s.log) pc → PlaceOk (os.foldl (taskStep i) (taskOf i s.log)) pc'
  other : ∀ j t, j ≠ i → os.foldl (taskStep j) t = t
  ends : PlaceOk (taskOf i s.log) pc → ∀ a o b, os = a ++ o :: b → EndOk (s.log ++ a) o

theorem rounds_move {s s' : Migr.State X} (hi : RoundsInv s) {i : Nat} {pc pc' : Migr.Pc X} {os : List (Migr.Obs X)}
    (hp : s.islands[i]? = some pc) (h : RoundsMove s s' i pc pc' os) : RoundsInv s' := by
  have hP := hi.pcs i pc hp
  refine ⟨?_, ?_⟩
  · intro a o b hl
    rw [h.log] at hl
    rcases List.append_eq_append_iff.mp hl with ⟨m, hm, hm'⟩ | ⟨m, hm, hm'⟩
    · rw [hm]; exact h.ends hP m o b hm'
    · cases m with
      | nil =>
        simp only [List.append_nil, List.nil_append] at hm hm'
        have := h.ends hP [] o b hm'.symm
        rw [List.append_nil, hm] at this; exact this
      | cons o' m =>
        simp only [List.cons_append, List.cons.injEq] at hm'
        rw [← hm'.1] at hm
        exact hi.ok a o m hm
  · intro j p hj
    rw [h.isl] at hj
    rw [h.log, taskOf_append]
    by_cases hij : i = j
    · subst hij
      rw [List.getElem?_set_self (List.getElem?_eq_some_iff.mp hp).1] at hj
      cases hj
      exact h.place hP
    · rw [List.getElem?_set_ne hij] at hj
      rw [h.other j _ (Ne.symm hij)]
      exact hi.pcs j p hj

theorem rounds_quiet {s s' : Migr.State X} {i : Nat} {pc pc' : Migr.Pc X} (h1 : s'.islands = s.islands.set i pc')
    (h2 : s'.log = s.log) (h3 : ∀ t, PlaceOk t pc → PlaceOk t pc') : RoundsMove s s' i pc pc' [] :=
  ⟨h1, by simp [h2], h3 _, fun _ _ _ => rfl, fun _ a o b h => by simp at h⟩

theorem rounds_say {s s' : Migr.State X} {i : Nat} {pc pc' : Migr.Pc X} {o : Migr.Obs X}
    (h1 : s'.islands = s.islands.set i pc') (h2 : s'.log = s.log ++ [o])
    (h3 : ∀ t, PlaceOk t pc → PlaceOk (taskStep i t o) pc') (h4 : ∀ j t, j ≠ i → taskStep j t o = t)
    (h5 : ∀ l, PlaceOk (taskOf i l) pc → EndOk l o) : RoundsMove s s' i pc pc' [o] := by
  refine ⟨h1, h2, h3 _, h4, ?_⟩
  intro hP a o' b h
  cases a with
  | nil => simp only [List.nil_append, List.cons.injEq] at h; rw [← h.1, List.append_nil]; exact h5 _ hP
  | cons c a => simp at h

theorem setEntry_islands (s : Migr.State X) (src : Nat) (f : Grp X → Grp X) :
    (Migr.setEntry s src f).islands = s.islands ∧ (Migr.setEntry s src f).log = s.log := by
  unfold Migr.setEntry
  split <;> exact ⟨rfl, rfl⟩

theorem rounds_refuse {s s' : Migr.State X} {i src : Nat} {pc : Migr.Pc X} (e : Exn)
    (h1 : s'.islands = s.islands.set i .idle) (h2 : s'.log = s.log ++ [.refused i src, .ended i (some e)])
    (h3 : ∀ t, PlaceOk t pc → 0 < roundsLeft pc ∧ ∃ p, t = some (p + roundsLeft pc, p)) :
    RoundsMove s s' i pc .idle [.refused i src, .ended i (some e)] := by
  refine ⟨h1, h2, fun _ => by simp [taskStep, PlaceOk], fun j t hj => by simp [taskStep, Ne.symm hj], ?_⟩
  intro hP a o b h
  obtain ⟨hk, p, ht⟩ := h3 _ hP
  match a, h with
  | [], h => simp only [List.nil_append, List.cons.injEq] at h; rw [← h.1]; trivial
  | [c], h =>
    simp only [List.cons_append, List.nil_append, List.cons.injEq] at h
    obtain ⟨rfl, rfl, -⟩ := h
    refine ⟨p + roundsLeft pc, p, ?_, ?_⟩
    · rw [taskOf_append, ht]; rfl
    · omega
  | c :: d :: a, h => simp at h

theorem rounds_step {s s' : Migr.State X} (hi : RoundsInv s) {i : Nat} {inp : Input X} (h : Migr.step s i inp = some s') :
    RoundsInv s' := by
  unfold Migr.step at h
  cases hp : s.islands[i]? with
  | none => rw [hp] at h; cases h
  | some pc =>
    rw [hp] at h
    simp only at h
    have hend : ∀ (e : Exn) (pc : Migr.Pc X), (∀ t, PlaceOk t pc → 0 < roundsLeft pc ∧ ∃ p, t = some (p + roundsLeft pc, p)) →
        ∀ (l : List (Migr.Obs X)), PlaceOk (taskOf i l) pc → EndOk l (.ended i (some e)) := by
      intro e pc h l hl
      obtain ⟨h1, p, h2⟩ := h _ hl
      exact ⟨_, p, h2, by omega⟩
    cases pc with
    | idle => cases inp <;> simp at h
    | top k =>
      cases k with
      | zero =>
        cases inp <;> simp at h
        subst h
        exact rounds_move hi hp (rounds_say rfl rfl (fun _ _ => by simp [taskStep, PlaceOk])
          (fun j t hj => by simp [taskStep, Ne.symm hj]) (fun l ⟨p, hl⟩ => ⟨p, by simpa using hl⟩))
      | succ k =>
        cases inp <;> simp at h
        · subst h
          rename_i cs
          refine rounds_move hi hp (rounds_say rfl rfl (fun t ht => ?_) (fun j t hj => rfl) (fun l _ => trivial))
          split <;> exact ⟨by simp [roundsLeft], ht⟩
        · subst h
          refine rounds_move hi hp (rounds_say rfl rfl (fun _ _ => by simp [taskStep, PlaceOk])
            (fun j t hj => by simp [taskStep, Ne.symm hj]) (hend _ _ (fun t ht => ⟨by simp [roundsLeft], ht⟩)))
    | mtype k cs =>
      cases inp <;> simp at h
      subst h
      exact rounds_move hi hp (rounds_quiet rfl rfl (fun t ht => ht))
    | handling k cs p2p =>
      cases inp <;> simp at h
      subst h
      refine rounds_move hi hp (rounds_quiet rfl rfl (fun t ht => ?_))
      split <;> exact ht
    | pick k cs ev =>
      cases inp <;> simp at h
      rename_i j acc
      cases hj : cs[j]? with
      | none => rw [hj] at h; cases h
      | some src =>
        rw [hj] at h
        simp only [Option.some.injEq] at h
        subst h
        refine rounds_move hi hp (rounds_quiet rfl rfl (fun t ht => ?_))
        split <;> exact ht
    | cast k cs ev j acc =>
      cases inp <;> simp at h
      · obtain ⟨-, rfl⟩ := h
        exact rounds_move hi hp (rounds_quiet rfl rfl (fun t ht => ht))
      · cases hj : cs[j]? with
        | none => rw [hj] at h; cases h
        | some src =>
          rw [hj] at h
          simp only [Option.some.injEq] at h
          subst h
          refine rounds_move hi hp (rounds_quiet rfl rfl (fun t ht => ?_))
          split <;> exact ht
    | fetchLock k f =>
      cases inp <;> simp at h
      obtain ⟨-, rfl⟩ := h
      exact rounds_move hi hp (rounds_quiet rfl rfl (fun t ht => ht))
    | fetchCheck k f =>
      cases inp <;> simp at h
      split at h
      · cases h
        exact rounds_move hi hp (rounds_refuse _ rfl rfl (fun t ht => ht))
      · cases h
        exact rounds_move hi hp (rounds_quiet rfl rfl (fun t ht => ht))
    | fetch0 k f =>
      cases inp <;> simp at h
      subst h
      exact rounds_move hi hp (rounds_quiet rfl rfl (fun t ht => ht))
    | fetch1 k f ids =>
      cases inp <;> simp at h
      subst h
      exact rounds_move hi hp (rounds_quiet rfl rfl (fun t ht => ht))
    | fetch2 k f ids xs =>
      cases inp <;> simp at h
      subst h
      refine rounds_move hi hp (rounds_quiet rfl rfl (fun t ht => ?_))
      split <;> exact ht
    | clear0 k f g =>
      cases inp <;> simp at h
      subst h
      exact rounds_move hi hp (rounds_quiet (by simp [Migr.goto, setEntry_islands]) (by simp [Migr.goto, setEntry_islands])
        (pc' := .clear1 k f g) (fun t ht => ht))
    | clear1 k f g =>
      cases inp <;> simp at h
      subst h
      exact rounds_move hi hp (rounds_quiet (by simp [Migr.goto, setEntry_islands]) (by simp [Migr.goto, setEntry_islands])
        (pc' := .clear2 k f g) (fun t ht => ht))
    | clear2 k f g =>
      cases inp <;> simp at h
      subst h
      exact rounds_move hi hp (rounds_quiet (by simp [Migr.goto, setEntry_islands]) (by simp [Migr.goto, setEntry_islands])
        (pc' := .fetchUnlock k f g) (fun t ht => ht))
    | fetchUnlock k f g =>
      cases inp <;> simp at h
      subst h
      refine rounds_move hi hp (rounds_say rfl rfl (fun t ht => ?_) (fun j t hj => rfl) (fun l _ => trivial))
      unfold Migr.resume
      split <;> exact ht
    | replace k acc =>
      cases inp <;> simp at h
      · subst h
        exact rounds_move hi hp (rounds_say rfl rfl (fun t ht => ht) (fun j t hj => rfl) (fun l _ => trivial))
      · subst h
        exact rounds_move hi hp (rounds_say rfl rfl (fun _ _ => by simp [taskStep, PlaceOk])
          (fun j t hj => by simp [taskStep, Ne.symm hj]) (hend _ _ (fun t ht => ht)))
    | setInds k acc l =>
      cases inp <;> simp at h
      · subst h
        exact rounds_move hi hp (rounds_say rfl rfl (fun t ht => ht) (fun j t hj => rfl) (fun l _ => trivial))
      · subst h
        exact rounds_move hi hp (rounds_say rfl rfl (fun _ _ => by simp [taskStep, PlaceOk])
          (fun j t hj => by simp [taskStep, Ne.symm hj]) (hend _ _ (fun t ht => ht)))
    | append k acc l =>
      cases inp <;> simp at h
      subst h
      exact rounds_move hi hp (rounds_say rfl rfl (fun t ht => ht) (fun j t hj => rfl) (fun l _ => trivial))
    | evolve k =>
      cases inp <;> simp at h
      · subst h
        exact rounds_move hi hp (rounds_quiet rfl rfl (fun t ht => ht))
      · subst h
        exact rounds_move hi hp (rounds_say rfl rfl (fun _ _ => by simp [taskStep, PlaceOk])
          (fun j t hj => by simp [taskStep, Ne.symm hj]) (hend _ _ (fun t ht => ht)))
    | select k =>
      cases inp <;> simp at h
      · subst h
        exact rounds_move hi hp (rounds_say rfl rfl (fun t ht => ht) (fun j t hj => rfl) (fun l _ => trivial))
      · subst h
        exact rounds_move hi hp (rounds_say rfl rfl (fun _ _ => by simp [taskStep, PlaceOk])
          (fun j t hj => by simp [taskStep, Ne.symm hj]) (hend _ _ (fun t ht => ht)))
    | putLock k g =>
      cases inp <;> simp at h
      obtain ⟨-, rfl⟩ := h
      exact rounds_move hi hp (rounds_quiet rfl rfl (fun t ht => ht))
    | putCheck k g =>
      cases inp <;> simp at h
      split at h
      · cases h
        exact rounds_move hi hp (rounds_refuse _ rfl rfl (fun t ht => ht))
      · cases h
        exact rounds_move hi hp (rounds_quiet rfl rfl (fun t ht => ht))
    | put0 k g =>
      cases inp <;> simp at h
      subst h
      exact rounds_move hi hp (rounds_quiet (by simp [Migr.goto, setEntry_islands]) (by simp [Migr.goto, setEntry_islands])
        (pc' := .put1 k g) (fun t ht => ht))
    | put1 k g =>
      cases inp <;> simp at h
      subst h
      exact rounds_move hi hp (rounds_quiet (by simp [Migr.goto, setEntry_islands]) (by simp [Migr.goto, setEntry_islands])
        (pc' := .put2 k g) (fun t ht => ht))
    | put2 k g =>
      cases inp <;> simp at h
      subst h
      exact rounds_move hi hp (rounds_quiet (by simp [Migr.goto, setEntry_islands]) (by simp [Migr.goto, setEntry_islands])
        (pc' := .putUnlock k g) (fun t ht => ht))
    | putUnlock k g =>
      cases inp <;> simp at h
      subst h
      refine rounds_move hi hp (rounds_say rfl rfl (fun t ht => ?_) (fun j t hj => by simp [taskStep, Ne.symm hj]) (fun l _ => trivial))
      obtain ⟨hk, p, rfl⟩ := ht
      simp only [roundsLeft] at hk
      refine ⟨p + 1, ?_⟩
      simp only [taskStep, if_true, Option.map_some, Option.some.injEq, Prod.mk.injEq, roundsLeft, and_true]
      omega

/-- **C41.** `evolve(n)` makes `n` rounds: when the task ends normally the selection policy has placed migrants `n` times
since it started; when it ends with an exception, fewer times. Tasks of an island do not overlap. -/
theorem C41_rounds (db : List (Grp X)) (n : Nat) {es : List (Migr.Ev X)} {s : Migr.State X}
    (h : Migr.run (Migr.init db n) es = some s) (a b : List (Migr.Obs X)) (o : Migr.Obs X) (hl : s.log = a ++ o :: b) : EndOk a o := by
  have key : ∀ (es : List (Migr.Ev X)) (s s' : Migr.State X), RoundsInv s → Migr.run s es = some s' → RoundsInv s' := by
    intro es
    induction es with
    | nil => intro s s' hi h; simp only [Migr.run, Option.some.injEq] at h; subst h; exact hi
    | cons e es ih =>
      intro s s' hi h
      simp only [Migr.run] at h
      split at h
      · cases h
      · rename_i s1 h1
        refine ih s1 s' ?_ h
        cases e with
        | start i n =>
          simp only [Migr.next] at h1
          split at h1
          · rename_i hp
            cases h1
            exact rounds_move hi hp (rounds_say rfl rfl (fun t ht => ⟨0, by simp [taskStep]⟩)
              (fun j t hj => by simp [taskStep, Ne.symm hj]) (fun l hl => hl))
          · cases h1
        | step i inp => exact rounds_step hi h1
        | setType b => simp only [Migr.next, Option.some.injEq] at h1; subst h1; exact ⟨hi.ok, hi.pcs⟩
        | setHandling b => simp only [Migr.next, Option.some.injEq] at h1; subst h1; exact ⟨hi.ok, hi.pcs⟩
        | setDb db =>
          simp only [Migr.next] at h1
          split at h1
          · cases h1
            refine ⟨?_, fun i pc hp => by rw [taskOf_append]; exact hi.pcs i pc hp⟩
            intro a o b hl
            rcases List.append_eq_append_iff.mp hl with ⟨m, hm, hm'⟩ | ⟨m, hm, hm'⟩
            · cases m with
              | nil => simp only [List.nil_append, List.cons.injEq] at hm'; rw [← hm'.1]; trivial
              | cons c m => simp at hm'
            · cases m with
              | nil => simp only [List.nil_append, List.cons.injEq] at hm'; rw [hm'.1]; trivial
              | cons c m =>
                simp only [List.cons_append, List.cons.injEq] at hm'
                rw [← hm'.1] at hm
                exact hi.ok a o m hm
          · cases h1
  refine (key es _ s ⟨by intro a o b h; simp [Migr.init] at h, ?_⟩ h).ok a o b hl
  intro j p hj
  simp only [Migr.init, List.getElem?_replicate] at hj
  split at hj
  · cases hj; rfl
  · cases hj

/-- two rounds of island 0 -/
example : (Migr.run (Migr.init (List.replicate 1 ⟨[], [], []⟩) 1)
    ([.start 0 2, .step 0 (.conns []), .step 0 .none, .step 0 (.group ⟨[7], [70], [700]⟩)] ++ List.replicate 6 (.step 0 .none) ++
     [.step 0 (.conns []), .step 0 .none, .step 0 (.group ⟨[8], [80], [800]⟩)] ++ List.replicate 7 (.step 0 .none))).map (fun s => s.log) =
    some [.start 0 2, .conns 0 [], .selected 0 ⟨[7], [70], [700]⟩, .put 0 ⟨[7], [70], [700]⟩, .conns 0 [],
      .selected 0 ⟨[8], [80], [800]⟩, .put 0 ⟨[8], [80], [800]⟩, .ended 0 none] := by decide +kernel

end Verif.Props
