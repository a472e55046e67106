import Verif.Proof.Wrapper

/-!
# C136, C137: the wrappers have value semantics; the optional methods of an algorithm
-/

set_option autoImplicit false

namespace Verif.Props

open Verif Spec.Value
open Verif.Wrap (Op Mach MemOps ProbMem AlgMem Uda)

variable {σ M : Type}

/-- The members of every one of the classes follow their object: a copy, a move and an assignment give all the members of the source, whatever
is left behind in the source of a move. -/
theorem C136_members {K : Type} (l1 : ProbMem K → Wrap.ProbLeft K) (l2 : AlgMem → String) (l3 : String × Nat → String) (l4 : String → String) :
    Faithful (Wrap.probOps l1) ∧ Faithful (Wrap.algOps l2) ∧ Faithful (Wrap.bfeOps l3) ∧ Faithful (Wrap.nameOps l4) :=
  ⟨⟨fun _ => rfl, fun _ => rfl, fun _ _ => rfl⟩, ⟨fun _ => rfl, fun _ => rfl, fun _ _ => rfl⟩, ⟨fun _ => rfl, fun _ => rfl, fun _ _ => rfl⟩,
    ⟨fun _ => rfl, fun _ => rfl, fun _ _ => rfl⟩⟩

/-- Every program behaves as if each variable held a value of its own: it runs without undefined behaviour exactly if it is allowed on values,
throws the same exceptions at the same statements, and leaves every variable with the value expected; nothing is left of the temporaries. -/
theorem C136_value (ctor : σ → Except Exn M) {ops : MemOps M} (hops : Faithful ops) (cp : σ → Option Exn) (os : List (Op σ M)) :
    match valExec ctor cp (fun _ => none) os with
    | none => Wrap.exec ctor ops cp Mach.empty os = .ub
    | some (S, es) => ∃ s, Wrap.exec ctor ops cp Mach.empty os = .ok (s, es) ∧ (∀ v, Holds s (some v) (S v)) ∧ s.vars none = none := by
  have := Wrap.exec_sim Wrap.rep_empty ctor hops cp os
  match h : valExec ctor cp (fun _ => none) os with
  | none => rw [h] at this; exact this
  | some (S, es) =>
    rw [h] at this
    obtain ⟨s, h1, h2⟩ := this
    exact ⟨s, h1, fun v => h2.holds (some v), h2.none rfl⟩

/-- what a program that ran leaves -/
theorem wrap_reached {ctor : σ → Except Exn M} {ops : MemOps M} (hops : Faithful ops) {cp : σ → Option Exn} {os : List (Op σ M)}
    {s : Mach σ M} {es : List (Option Exn)} (h : Wrap.exec ctor ops cp Mach.empty os = .ok (s, es)) :
    ∃ S, valExec ctor cp (fun _ => none) os = some (S, es) ∧ Wrap.Rep s (Wrap.lift S) := by
  have := Wrap.exec_sim Wrap.rep_empty ctor hops cp os
  match hv : valExec ctor cp (fun _ => none) os with
  | none =>
    rw [hv] at this
    rw [h] at this
    cases this
  | some (S, es') =>
    rw [hv] at this
    obtain ⟨s', h1, h2⟩ := this
    rw [h] at h1
    simp only [Outcome.ok.injEq, Prod.mk.injEq] at h1
    exact ⟨S, by rw [h1.2], h1.1 ▸ h2⟩

/-- After every program each object on the heap has exactly one owner: no two variables share an object, and none is lost. -/
theorem C136_one_owner {ctor : σ → Except Exn M} {ops : MemOps M} (hops : Faithful ops) {cp : σ → Option Exn} {os : List (Op σ M)}
    {s : Mach σ M} {es : List (Option Exn)} (h : Wrap.exec ctor ops cp Mach.empty os = .ok (s, es)) : OneOwner s := by
  obtain ⟨S, _, hr⟩ := wrap_reached hops h
  exact hr.oneOwner

/-- Once all variables are gone, so are the objects, also those of constructors and copies that threw. -/
theorem C136_no_leak {ctor : σ → Except Exn M} {ops : MemOps M} (hops : Faithful ops) {cp : σ → Option Exn} {os : List (Op σ M)}
    {s : Mach σ M} {es : List (Option Exn)} (h : Wrap.exec ctor ops cp Mach.empty os = .ok (s, es)) (hv : ∀ v, s.vars v = none) (a : Nat) :
    s.heap a = none := by
  have ho := C136_one_owner hops h
  match ha : s.heap a with
  | none => rfl
  | some u =>
    obtain ⟨v, m, hm⟩ := (ho.2 a).mp ⟨u, ha⟩
    rw [hv v] at hm
    cases hm

/-- the variables whose value a statement changes -/
def wrapChanges : Op σ M → List Nat
  | .make v _ => [v]
  | .makeAssign v _ => [v]
  | .copyCtor v _ => [v]
  | .copyAssign v _ => [v]
  | .moveCtor v w => [v, w]
  | .moveAssign v w => [v, w]
  | .method _ v => [v]
  | .drop v => [v]

theorem wrap_upd_ne (S : Store σ M) {v x : Nat} (y : Option (Option (σ × M))) (h : x ≠ v) : upd S v y x = S x := if_neg h

theorem valStep_frame {ctor : σ → Except Exn M} {cp : σ → Option Exn} {S S' : Store σ M} {o : Op σ M} {e : Option Exn}
    (h : valStep ctor cp S o = some (S', e)) {x : Nat} (hx : x ∉ wrapChanges o) : S' x = S x := by
  match o with
  | .make v u =>
    have hx' : x ≠ v := by simpa [wrapChanges] using hx
    simp only [valStep] at h
    repeat' split at h
    all_goals cases h
    all_goals first | rfl | exact wrap_upd_ne _ _ hx'
  | .makeAssign v u =>
    have hx' : x ≠ v := by simpa [wrapChanges] using hx
    simp only [valStep] at h
    repeat' split at h
    all_goals cases h
    all_goals first | rfl | exact wrap_upd_ne _ _ hx'
  | .copyCtor v w =>
    have hx' : x ≠ v := by simpa [wrapChanges] using hx
    simp only [valStep] at h
    repeat' split at h
    all_goals cases h
    all_goals first | rfl | exact wrap_upd_ne _ _ hx'
  | .copyAssign v w =>
    have hx' : x ≠ v := by simpa [wrapChanges] using hx
    simp only [valStep] at h
    repeat' split at h
    all_goals cases h
    all_goals first | rfl | exact wrap_upd_ne _ _ hx'
  | .moveCtor v w =>
    have hx' : x ≠ v ∧ x ≠ w := by simpa [wrapChanges] using hx
    simp only [valStep] at h
    repeat' split at h
    all_goals cases h
    rw [wrap_upd_ne _ _ hx'.2, wrap_upd_ne _ _ hx'.1]
  | .moveAssign v w =>
    have hx' : x ≠ v ∧ x ≠ w := by simpa [wrapChanges] using hx
    simp only [valStep] at h
    repeat' split at h
    all_goals cases h
    all_goals first | rfl | rw [wrap_upd_ne _ _ hx'.2, wrap_upd_ne _ _ hx'.1]
  | .method f v =>
    have hx' : x ≠ v := by simpa [wrapChanges] using hx
    simp only [valStep] at h
    repeat' split at h
    all_goals cases h
    exact wrap_upd_ne _ _ hx'
  | .drop v =>
    have hx' : x ≠ v := by simpa [wrapChanges] using hx
    simp only [valStep] at h
    repeat' split at h
    all_goals cases h
    exact wrap_upd_ne _ _ hx'

/-- a statement that ran after a program, against the values -/
theorem wrap_next {ctor : σ → Except Exn M} {ops : MemOps M} (hops : Faithful ops) {cp : σ → Option Exn} {os : List (Op σ M)}
    {s : Mach σ M} {es : List (Option Exn)} (h : Wrap.exec ctor ops cp Mach.empty os = .ok (s, es)) {o : Op σ M} {s' : Mach σ M}
    {e : Option Exn} (h' : Wrap.step ctor ops cp s o = .ok (s', e)) :
    ∃ S S', Wrap.Rep s (Wrap.lift S) ∧ valStep ctor cp S o = some (S', e) ∧ Wrap.Rep s' (Wrap.lift S') := by
  obtain ⟨S, _, hr⟩ := wrap_reached hops h
  have hs := Wrap.step_sim hr ctor hops cp o
  match hv : valStep ctor cp S o with
  | none =>
    rw [hv] at hs
    change Wrap.step ctor ops cp s o = .ub at hs
    rw [h'] at hs
    cases hs
  | some (S', e') =>
    rw [hv] at hs
    obtain ⟨s'', h1, h2⟩ := hs
    rw [h'] at h1
    simp only [Outcome.ok.injEq, Prod.mk.injEq] at h1
    exact ⟨S, S', hr, by rw [hv, h1.2], h1.1 ▸ h2⟩

/-- the value held by a variable is one -/
theorem holds_unique {s : Mach σ M} {v : Wrap.Var} {x y : Option (Option (σ × M))} (hx : Holds s v x) (hy : Holds s v y) : x = y := by
  match x, y with
  | none, none => rfl
  | none, some none =>
    obtain ⟨m, hy⟩ := hy
    change s.vars v = none at hx
    rw [hx] at hy
    cases hy
  | none, some (some (u, m)) =>
    obtain ⟨a, hy, _⟩ := hy
    change s.vars v = none at hx
    rw [hx] at hy
    cases hy
  | some none, none =>
    obtain ⟨m, hx⟩ := hx
    change s.vars v = none at hy
    rw [hx] at hy
    cases hy
  | some (some (u, m)), none =>
    obtain ⟨a, hx, _⟩ := hx
    change s.vars v = none at hy
    rw [hx] at hy
    cases hy
  | some none, some none => rfl
  | some none, some (some (u, m)) =>
    obtain ⟨m', hx⟩ := hx
    obtain ⟨a, hy, _⟩ := hy
    rw [hx] at hy
    simp at hy
  | some (some (u, m)), some none =>
    obtain ⟨m', hy⟩ := hy
    obtain ⟨a, hx, _⟩ := hx
    rw [hx] at hy
    simp at hy
  | some (some (u, m)), some (some (u', m')) =>
    obtain ⟨a, h1, h2⟩ := hx
    obtain ⟨a', h3, h4⟩ := hy
    rw [h1] at h3
    simp only [Option.some.injEq, Wrap.Wr.mk.injEq] at h3
    rw [h3.1, h4] at h2
    simp only [Option.some.injEq] at h2
    rw [h2, h3.2]

/-- A statement changes no variable but its target and, for a move, its source: in particular changing a copy does not change the original, nor
the other way round. Its exceptions do not change this. -/
theorem C136_independent {ctor : σ → Except Exn M} {ops : MemOps M} (hops : Faithful ops) {cp : σ → Option Exn} {os : List (Op σ M)}
    {s : Mach σ M} {es : List (Option Exn)} (h : Wrap.exec ctor ops cp Mach.empty os = .ok (s, es)) {o : Op σ M} {s' : Mach σ M}
    {e : Option Exn} (h' : Wrap.step ctor ops cp s o = .ok (s', e)) {x : Nat} (hx : x ∉ wrapChanges o) {y : Option (Option (σ × M))}
    (hy : Holds s (some x) y) : Holds s' (some x) y := by
  obtain ⟨S, S', h1, h2, h3⟩ := wrap_next hops h h'
  have := h3.holds (some x)
  change Holds s' (some x) (S' x) at this
  rw [valStep_frame h2 hx] at this
  rw [holds_unique hy (h1.holds (some x))]
  exact this

/-- Copy assignment, also to itself: the target holds the object and the members of the source, and the source keeps its own; if the object
cannot be copied, no variable has changed. -/
theorem C136_copy_assign {ctor : σ → Except Exn M} {ops : MemOps M} (hops : Faithful ops) {cp : σ → Option Exn} {os : List (Op σ M)}
    {s : Mach σ M} {es : List (Option Exn)} (h : Wrap.exec ctor ops cp Mach.empty os = .ok (s, es)) {v w : Nat} {y : Option (σ × M)} {u : σ}
    {m : M} (hv : Holds s (some v) (some y)) (hw : Holds s (some w) (some (some (u, m)))) :
    ∃ s', Wrap.step ctor ops cp s (.copyAssign v w) = .ok (s', cp u) ∧
      (cp u = none → Holds s' (some v) (some (some (u, m))) ∧ Holds s' (some w) (some (some (u, m)))) ∧
      (cp u ≠ none → ∀ (x : Nat) (z : Option (Option (σ × M))), Holds s (some x) z → Holds s' (some x) z) := by
  obtain ⟨S, _, hr⟩ := wrap_reached hops h
  have e1 : S v = some y := (holds_unique hv (hr.holds (some v))).symm
  have e2 : S w = some (some (u, m)) := (holds_unique hw (hr.holds (some w))).symm
  have hs := Wrap.step_sim hr ctor hops cp (.copyAssign v w)
  unfold valStep at hs
  dsimp only at hs
  rw [e1, e2] at hs
  dsimp only at hs
  match hc : cp u with
  | none =>
    rw [hc] at hs
    obtain ⟨s', h1, h2⟩ := hs
    refine ⟨s', h1, fun _ => ⟨?_, ?_⟩, fun q => absurd rfl q⟩
    · have := h2.holds (some v)
      change Holds s' (some v) (upd S v (some (some (u, m))) v) at this
      rw [show upd S v (some (some (u, m))) v = some (some (u, m)) from if_pos rfl] at this
      exact this
    · have := h2.holds (some w)
      change Holds s' (some w) (upd S v (some (some (u, m))) w) at this
      have hq : upd S v (some (some (u, m))) w = some (some (u, m)) := by
        unfold upd
        by_cases hvw : w = v
        · rw [if_pos hvw]
        · rw [if_neg hvw, e2]
      rw [hq] at this
      exact this
  | some e =>
    rw [hc] at hs
    obtain ⟨s', h1, h2⟩ := hs
    refine ⟨s', h1, (fun q => by cases q), fun _ x z hz => ?_⟩
    rw [holds_unique hz (hr.holds (some x))]
    exact h2.holds (some x)

/-! a concrete program: an object is made, copied, the copy changed, assigned back and forth, moved, and all variables die -/

/-- a user-defined algorithm with a seed and a verbosity -/
def udaDemo : Uda (Nat × Nat) where
  setSeed := some (fun n u => ((n, u.2), none))
  hasSeed := none
  setVerb := some (fun n u => if n < 5 then ((u.1, n), none) else (u, some .invalidArgument))
  hasVerb := some (fun u => .ok (decide (u.2 < 3)))
  name := none
  extra := none
  safety := some (fun _ => .ok 2)

/-- a program on it -/
def wrapDemo : List (Op (Nat × Nat) AlgMem) :=
  [.make 0 (7, 0), .copyCtor 1 0, .method (Wrap.algSetSeed udaDemo 9) 1, .copyAssign 0 0, .moveCtor 2 1, .moveAssign 2 2, .copyAssign 1 0,
    .method (Wrap.algSetVerb udaDemo 8) 0, .moveAssign 0 2, .makeAssign 2 (1, 1)]

example : (valExec (Wrap.algCtor udaDemo "demo") (fun _ => none) (fun _ => none) wrapDemo).map (fun r => (r.1 0, r.1 1, r.1 2, r.2)) =
    some (some (some ((9, 0), ⟨true, true, "demo", 2⟩)), some (some ((7, 0), ⟨true, true, "demo", 2⟩)),
      some (some ((1, 1), ⟨true, true, "demo", 2⟩)),
      [none, none, none, none, none, none, none, some .invalidArgument, none, none]) := by
  rfl

example : Faithful (Wrap.algOps (fun _ => "")) := (C136_members (K := Nat) (fun o => ⟨[], [], [], [], o.name⟩) _ (fun _ => "") (fun _ => "")).2.1

/-- using a variable after its object was moved away is undefined behaviour -/
example : Wrap.exec (Wrap.algCtor udaDemo "demo") (Wrap.algOps (fun _ => "")) (fun _ => none) Mach.empty
    [.make 0 (7, 0), .moveCtor 1 0, .copyCtor 2 0] = .ub :=
  C136_value (Wrap.algCtor udaDemo "demo") (ops := Wrap.algOps (fun _ => "")) ⟨fun _ => rfl, fun _ => rfl, fun _ _ => rfl⟩ (fun _ => none)
    [.make 0 (7, 0), .moveCtor 1 0, .copyCtor 2 0]

/-! ## C137 -/

/-- What the constructor stores: `has_set_seed` (also `is_stochastic`) is false without a method `set_seed`, the answer of the object's own
`has_set_seed` if it has one, and true otherwise; the same for the verbosity; the name is that given by the object or its type; the safety
that given by the object or basic. If one of these methods throws, so does the constructor. -/
theorem C137_ctor (U : Uda σ) (tn : String) (u : σ) (m : AlgMem) (h : Wrap.algCtor U tn u = .ok m) :
    (m.hasSeed = true ↔ U.setSeed ≠ none ∧ ∀ f, U.hasSeed = some f → f u = .ok true) ∧
    (m.hasVerb = true ↔ U.setVerb ≠ none ∧ ∀ f, U.hasVerb = some f → f u = .ok true) ∧
    (∀ f, U.name = some f → f u = .ok m.name) ∧ (U.name = none → m.name = tn) ∧
    (∀ f, U.safety = some f → f u = .ok m.safety) ∧ (U.safety = none → m.safety = 1) := by
  have key : ∀ (me : Option (Nat → σ → σ × Option Exn)) (ov : Option (σ → Except Exn Bool)) (b : Bool), Wrap.hasImpl me ov u = .ok b →
      (b = true ↔ me ≠ none ∧ ∀ f, ov = some f → f u = .ok true) := by
    intro me ov b hb
    unfold Wrap.hasImpl at hb
    match me, ov with
    | none, _ =>
      simp only [Except.ok.injEq] at hb
      rw [← hb]
      simp
    | some g, none =>
      simp only [Except.ok.injEq] at hb
      rw [← hb]
      simp
    | some g, some f =>
      dsimp only at hb
      constructor
      · intro hbt
        refine ⟨by simp, ?_⟩
        intro f' hf'
        cases hf'
        rw [hb, hbt]
      · intro hbt
        have := hbt.2 f rfl
        rw [hb] at this
        simpa using this
  unfold Wrap.algCtor at h
  match h1 : Wrap.hasImpl U.setSeed U.hasSeed u with
  | .error e => rw [h1] at h; cases h
  | .ok a =>
    rw [h1] at h
    match h2 : Wrap.hasImpl U.setVerb U.hasVerb u with
    | .error e => rw [h2] at h; cases h
    | .ok b =>
      rw [h2] at h
      match h3 : Wrap.getImpl U.name tn u with
      | .error e => rw [h3] at h; cases h
      | .ok n =>
        rw [h3] at h
        match h4 : Wrap.getImpl U.safety 1 u with
        | .error e => rw [h4] at h; cases h
        | .ok t =>
          rw [h4] at h
          have hm : m = ⟨a, b, n, t⟩ := (Except.ok.inj h).symm
          rw [hm]
          refine ⟨key _ _ _ h1, key _ _ _ h2, ?_, ?_, ?_, ?_⟩
          · intro f hf
            unfold Wrap.getImpl at h3
            rw [hf] at h3
            exact h3
          · intro hf
            unfold Wrap.getImpl at h3
            rw [hf] at h3
            exact (Except.ok.inj h3).symm
          · intro f hf
            unfold Wrap.getImpl at h4
            rw [hf] at h4
            exact h4
          · intro hf
            unfold Wrap.getImpl at h4
            rw [hf] at h4
            exact (Except.ok.inj h4).symm

/-- `set_seed` and `set_verbosity` of a variable after any program: without the method in the object, `not_implemented_error` and the variable
holds what it held; else the object after its own method with the same cached members, and the exception of the method if it throws. -/
theorem C137_set (U : Uda σ) (tn : String) {ops : MemOps AlgMem} (hops : Faithful ops) {cp : σ → Option Exn} {os : List (Op σ AlgMem)}
    {s : Mach σ AlgMem} {es : List (Option Exn)} (h : Wrap.exec (Wrap.algCtor U tn) ops cp Mach.empty os = .ok (s, es)) {v : Nat} {u : σ}
    {m : AlgMem} (hv : Holds s (some v) (some (some (u, m)))) (n : Nat) :
    (∃ s' e, Wrap.step (Wrap.algCtor U tn) ops cp s (.method (Wrap.algSetSeed U n) v) = .ok (s', e) ∧
      (U.setSeed = none → e = some .notImplemented ∧ Holds s' (some v) (some (some (u, m)))) ∧
      ∀ f, U.setSeed = some f → e = (f n u).2 ∧ Holds s' (some v) (some (some ((f n u).1, m)))) ∧
    ∃ s' e, Wrap.step (Wrap.algCtor U tn) ops cp s (.method (Wrap.algSetVerb U n) v) = .ok (s', e) ∧
      (U.setVerb = none → e = some .notImplemented ∧ Holds s' (some v) (some (some (u, m)))) ∧
      ∀ f, U.setVerb = some f → e = (f n u).2 ∧ Holds s' (some v) (some (some ((f n u).1, m))) := by
  obtain ⟨S, _, hr⟩ := wrap_reached hops h
  have e1 : S v = some (some (u, m)) := (holds_unique hv (hr.holds (some v))).symm
  have key : ∀ f : σ → AlgMem → (σ × AlgMem) × Option Exn, ∃ s', Wrap.step (Wrap.algCtor U tn) ops cp s (.method f v) = .ok (s', (f u m).2) ∧
      Holds s' (some v) (some (some (f u m).1)) := by
    intro f
    have hs := Wrap.step_sim hr (Wrap.algCtor U tn) hops cp (.method f v)
    unfold valStep at hs
    dsimp only at hs
    rw [e1] at hs
    obtain ⟨s', h1, h2⟩ := hs
    refine ⟨s', h1, ?_⟩
    have := h2.holds (some v)
    change Holds s' (some v) (upd S v (some (some (f u m).1)) v) at this
    rw [show upd S v (some (some (f u m).1)) v = some (some (f u m).1) from if_pos rfl] at this
    exact this
  constructor
  · obtain ⟨s', h1, h2⟩ := key (Wrap.algSetSeed U n)
    refine ⟨s', _, h1, ?_, ?_⟩
    · intro hn
      unfold Wrap.algSetSeed Wrap.setImpl at h2 ⊢
      rw [hn] at h2 ⊢
      exact ⟨rfl, h2⟩
    · intro f hf
      unfold Wrap.algSetSeed Wrap.setImpl at h2 ⊢
      rw [hf] at h2 ⊢
      exact ⟨rfl, h2⟩
  · obtain ⟨s', h1, h2⟩ := key (Wrap.algSetVerb U n)
    refine ⟨s', _, h1, ?_, ?_⟩
    · intro hn
      unfold Wrap.algSetVerb Wrap.setImpl at h2 ⊢
      rw [hn] at h2 ⊢
      exact ⟨rfl, h2⟩
    · intro f hf
      unfold Wrap.algSetVerb Wrap.setImpl at h2 ⊢
      rw [hf] at h2 ⊢
      exact ⟨rfl, h2⟩

/-- the objects a program starts from -/
def wrapMakes : Op σ M → Option σ
  | .make _ u => some u
  | .makeAssign _ u => some u
  | _ => none

/-- methods that leave the cached members alone -/
def keepsMem : Op σ M → Prop
  | .method f _ => ∀ u m, (f u m).1.2 = m
  | _ => True

theorem valExec_cached {ctor : σ → Except Exn M} {cp : σ → Option Exn} (P : σ → Prop) {os : List (Op σ M)} (hk : ∀ o ∈ os, keepsMem o)
    (hm : ∀ o ∈ os, ∀ u, wrapMakes o = some u → P u) {S S' : Store σ M} {es : List (Option Exn)}
    (hS : ∀ v u m, S v = some (some (u, m)) → ∃ u0, P u0 ∧ ctor u0 = .ok m) (h : valExec ctor cp S os = some (S', es)) :
    ∀ v u m, S' v = some (some (u, m)) → ∃ u0, P u0 ∧ ctor u0 = .ok m := by
  induction os generalizing S es with
  | nil =>
    simp only [valExec, Option.some.injEq, Prod.mk.injEq] at h
    rw [← h.1]
    exact hS
  | cons o os ih =>
    unfold valExec at h
    match hs : valStep ctor cp S o with
    | none => rw [hs] at h; cases h
    | some (S1, e) =>
      rw [hs] at h
      dsimp only at h
      match hx : valExec ctor cp S1 os with
      | none => rw [hx] at h; cases h
      | some (S2, es2) =>
        rw [hx] at h
        simp only [Option.some.injEq, Prod.mk.injEq] at h
        refine ih (fun o' ho' => hk o' (List.mem_cons_of_mem _ ho')) (fun o' ho' => hm o' (List.mem_cons_of_mem _ ho')) ?_
          (by rw [hx, h.1])
        have hmo := hm o (List.mem_cons_self)
        have hko := hk o (List.mem_cons_self)
        have hupd : ∀ (v x : Nat) (y : Option (Option (σ × M))) (T : Store σ M),
            (∀ v u m, T v = some (some (u, m)) → ∃ u0, P u0 ∧ ctor u0 = .ok m) →
            (∀ u m, y = some (some (u, m)) → ∃ u0, P u0 ∧ ctor u0 = .ok m) →
            ∀ v' u m, upd T v y v' = some (some (u, m)) → ∃ u0, P u0 ∧ ctor u0 = .ok m := by
          intro v x y T hT hy v' u m hv'
          unfold upd at hv'
          by_cases hvv : v' = v
          · rw [if_pos hvv] at hv'; exact hy u m hv'
          · rw [if_neg hvv] at hv'; exact hT v' u m hv'
        match o with
        | .make v u =>
          simp only [valStep] at hs
          split at hs
          · cases hs
          · split at hs
            · cases hs; exact hS
            · rename_i m' hc
              cases hs
              refine hupd v 0 _ S hS ?_
              intro u1 m1 he
              simp only [Option.some.injEq, Prod.mk.injEq] at he
              exact ⟨u, hmo u rfl, by rw [hc, he.2]⟩
        | .makeAssign v u =>
          simp only [valStep] at hs
          split at hs
          · cases hs
          · split at hs
            · cases hs; exact hS
            · rename_i m' hc
              cases hs
              refine hupd v 0 _ S hS ?_
              intro u1 m1 he
              simp only [Option.some.injEq, Prod.mk.injEq] at he
              exact ⟨u, hmo u rfl, by rw [hc, he.2]⟩
        | .copyCtor v w =>
          simp only [valStep] at hs
          split at hs
          · rename_i u' m' _ hw
            split at hs
            · cases hs; exact hS
            · cases hs
              refine hupd v 0 _ S hS ?_
              intro u1 m1 he
              simp only [Option.some.injEq, Prod.mk.injEq] at he
              exact he.2 ▸ hS w u' m' hw
          · cases hs
        | .copyAssign v w =>
          simp only [valStep] at hs
          split at hs
          · rename_i u' m' _ hw
            split at hs
            · cases hs; exact hS
            · cases hs
              refine hupd v 0 _ S hS ?_
              intro u1 m1 he
              simp only [Option.some.injEq, Prod.mk.injEq] at he
              exact he.2 ▸ hS w u' m' hw
          · cases hs
        | .moveCtor v w =>
          simp only [valStep] at hs
          split at hs
          · rename_i x _ hw
            cases hs
            refine hupd w 0 _ _ (hupd v 0 _ S hS ?_) (fun u1 m1 he => by cases he)
            intro u1 m1 he
            exact hS w u1 m1 (hw.trans he)
          · cases hs
        | .moveAssign v w =>
          simp only [valStep] at hs
          split at hs
          · rename_i x _ hw
            split at hs
            · cases hs; exact hS
            · cases hs
              refine hupd w 0 _ _ (hupd v 0 _ S hS ?_) (fun u1 m1 he => by cases he)
              intro u1 m1 he
              exact hS w u1 m1 (hw.trans he)
          · cases hs
        | .method f v =>
          simp only [valStep] at hs
          split at hs
          · rename_i u' m' hv
            cases hs
            refine hupd v 0 _ S hS ?_
            intro u1 m1 he
            have he' := Option.some.inj (Option.some.inj he)
            have : m' = m1 := by
              have h1 := hko u' m'
              rw [he'] at h1
              exact h1.symm
            exact this ▸ hS v u' m' hv
          · cases hs
        | .drop v =>
          simp only [valStep] at hs
          split at hs
          · cases hs
            refine hupd v 0 _ S hS (fun u1 m1 he => by cases he)
          · cases hs

/-- The cached members are those of a construction: after every program of constructions, copies, moves, assignments and calls of `set_seed` and
`set_verbosity`, what a variable caches is what the constructor found in one of the objects the program was given. -/
theorem C137_cached (U : Uda σ) (tn : String) {ops : MemOps AlgMem} (hops : Faithful ops) {cp : σ → Option Exn} {os : List (Op σ AlgMem)}
    (hk : ∀ f v, Op.method f v ∈ os → ∃ n, f = Wrap.algSetSeed U n ∨ f = Wrap.algSetVerb U n) {s : Mach σ AlgMem} {es : List (Option Exn)}
    (h : Wrap.exec (Wrap.algCtor U tn) ops cp Mach.empty os = .ok (s, es)) {v : Nat} {u : σ} {m : AlgMem}
    (hv : Holds s (some v) (some (some (u, m)))) :
    ∃ u0, (∃ o ∈ os, wrapMakes o = some u0) ∧ Wrap.algCtor U tn u0 = .ok m := by
  obtain ⟨S, hS, hr⟩ := wrap_reached hops h
  have e1 : S v = some (some (u, m)) := (holds_unique hv (hr.holds (some v))).symm
  refine valExec_cached (fun u0 => ∃ o ∈ os, wrapMakes o = some u0) ?_ (fun o ho u hu => ⟨o, ho, hu⟩) (fun v u m hx => by cases hx) hS v u m e1
  intro o ho
  match o with
  | .method f w =>
    obtain ⟨n, rfl | rfl⟩ := hk f w ho
    · intro _ _; rfl
    · intro _ _; rfl
  | .make _ _ => trivial
  | .makeAssign _ _ => trivial
  | .copyCtor _ _ => trivial
  | .copyAssign _ _ => trivial
  | .moveCtor _ _ => trivial
  | .moveAssign _ _ => trivial
  | .drop _ => trivial

/-- Hence the answer can be out of date: the demo says it takes no verbosity from 3 on, but the wrapper still says it does. -/
theorem C137_stale : ∃ s es, Wrap.exec (Wrap.algCtor udaDemo "demo") (Wrap.algOps (fun _ => "")) (fun _ => none) Mach.empty
      [.make 0 (7, 0), .method (Wrap.algSetVerb udaDemo 4) 0] = .ok (s, es) ∧
    Holds s (some 0) (some (some ((7, 4), ⟨true, true, "demo", 2⟩))) ∧
    ∃ m, Wrap.algCtor udaDemo "demo" (7, 4) = .ok m ∧ m.hasVerb = false := by
  have h := C136_value (Wrap.algCtor udaDemo "demo") (ops := Wrap.algOps (fun _ => "")) ⟨fun _ => rfl, fun _ => rfl, fun _ _ => rfl⟩
    (fun _ => none) [.make 0 (7, 0), .method (Wrap.algSetVerb udaDemo 4) 0]
  obtain ⟨s, h1, h2, _⟩ := h
  exact ⟨s, _, h1, h2 0, _, rfl, rfl⟩

example : ∃ s' e, Wrap.step (Wrap.algCtor udaDemo "demo") (Wrap.algOps (fun _ => "")) (fun _ => none)
    ((Mach.empty.alloc (7, 0)).set (some 0) (some ⟨some 0, ⟨true, true, "demo", 2⟩⟩)) (.method (Wrap.algSetSeed udaDemo 5) 0) = .ok (s', e) ∧
    Holds s' (some 0) (some (some ((5, 0), ⟨true, true, "demo", 2⟩))) := by
  have hx : Wrap.exec (Wrap.algCtor udaDemo "demo") (Wrap.algOps (fun _ => "")) (fun _ => none) Mach.empty [.make 0 (7, 0)] =
      .ok ((Mach.empty.alloc (7, 0)).set (some 0) (some ⟨some 0, ⟨true, true, "demo", 2⟩⟩), [none]) := rfl
  obtain ⟨⟨s', e, h1, _, h2⟩, _⟩ := C137_set udaDemo "demo" ⟨fun _ => rfl, fun _ => rfl, fun _ _ => rfl⟩ hx (v := 0) (u := (7, 0))
    (m := ⟨true, true, "demo", 2⟩) ⟨0, rfl, rfl⟩ 5
  exact ⟨s', e, h1, (h2 _ rfl).2⟩

end Verif.Props
