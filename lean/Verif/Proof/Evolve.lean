import Verif.Props.SelectReplace
import Verif.Props.Bounds
import Verif.Proof.Compass

/-!
# What an algorithm's run has done so far

Shared by the proofs about the population-based algorithms.
-/

set_option autoImplicit false

namespace Verif.Props

open Verif Run Prob Pop Alg

variable {K σ : Type} [Field K] [LinearOrder K]

/-- Sums, differences and products of finite numbers are finite (no overflow). -/
structure NoOverflow (op : Fl.Ops K) : Prop where
  add : ∀ a b : K, ∃ c, op.add (.fin a) (.fin b) = .fin c
  sub : ∀ a b : K, ∃ c, op.sub (.fin a) (.fin b) = .fin c
  mul : ∀ a b : K, ∃ c, op.mul (.fin a) (.fin b) = .fin c

/-- all components are finite -/
def AllFin (x : List (Fl K)) : Prop := ∀ v ∈ x, ∃ a : K, v = .fin a

/-- The problem: constructed, with finite bounds. -/
structure FiniteBox (P : AProb K) : Prop where
  bounds : SaneBounds P.lb P.ub P.nix
  nx : P.info.nx = P.lb.length
  finL : AllFin P.lb
  finU : AllFin P.ub

/-- Since the state `s0`, the fitness function was called for the points in `new`, for all of which `B` holds; the
population is sound and has the same individuals (the same IDs). -/
structure TrackedBy (B : List (Fl K) → Prop) (P : AProb K) (s0 : St K σ) (new : List (ECall K)) (s : St K σ) : Prop where
  inv : Inv P.info s.pop
  id : s.pop.id = s0.pop.id
  tol : s.pop.tol = s0.pop.tol
  evs : s.evs = s0.evs ++ new
  box : ∀ p ∈ new, B p.1
  user : ∀ p ∈ new, ∃ h, p.2 = P.fit h p.1
  faults : s0.pop.faults = [] → s.pop.faults = []

/-- A run that ended with an exception: so far only points with `B` were evaluated, and the exception comes from the
user's code or from the lack of memory. -/
def FailedBy (B : List (Fl K) → Prop) (P : AProb K) (s0 : St K σ) (e : Exn) (s : St K σ) : Prop :=
  ∃ new, s.evs = s0.evs ++ new ∧ (∀ p ∈ new, B p.1) ∧
    (UserFault P s.evs e ∨ e = .badAlloc ∧ s0.pop.faults ≠ [])

/-- `B`: inside the bounds -/
abbrev Tracked (P : AProb K) (s0 : St K σ) (new : List (ECall K)) (s : St K σ) : Prop :=
  TrackedBy (InBox P.lb P.ub 0) P s0 new s

/-- A run that ended with an exception: so far only points inside the bounds were evaluated, and the exception comes
from the user's code or from the lack of memory. -/
abbrev RunFailed (P : AProb K) (s0 : St K σ) (e : Exn) (s : St K σ) : Prop := FailedBy (InBox P.lb P.ub 0) P s0 e s

/-- a relation between the individuals with the same index -/
def Each (R : List (Fl K) → List (Fl K) → List (Fl K) → List (Fl K) → Prop) (p0 p : Pop.State K) : Prop :=
  ∀ (i : Nat) (x0 f0 x f : List (Fl K)), p0.x[i]? = some x0 → p0.f[i]? = some f0 → p.x[i]? = some x →
    p.f[i]? = some f → R x0 f0 x f

theorem tracked_refl {B : List (Fl K) → Prop} {P : AProb K} {s : St K σ} (hi : Inv P.info s.pop) : TrackedBy B P s [] s :=
  ⟨hi, rfl, rfl, by simp, by simp, by simp, id⟩

theorem tracked_rng {B : List (Fl K) → Prop} {P : AProb K} {s0 s : St K σ} {new : List (ECall K)} (h : TrackedBy B P s0 new s) (e : σ) :
    TrackedBy B P s0 new { s with e := e } := ⟨h.inv, h.id, h.tol, h.evs, h.box, h.user, h.faults⟩

theorem wp_eval_by {B : List (Fl K) → Prop} {P : AProb K} {s0 s : St K σ} {new : List (ECall K)} {x : List (Fl K)}
    {Q : List (Fl K) → St K σ → Prop} {E : Exn → St K σ → Prop} (hnx : x.length = P.info.nx)
    (ht : TrackedBy B P s0 new s) (hx : B x)
    (hq : ∀ f s', f.length = P.info.nf → s'.pop = s.pop → s'.e = s.e → TrackedBy B P s0 (new ++ [(x, .ok f)]) s' → Q f s')
    (he : ∀ e s', FailedBy B P s0 e s' → E e s') : wp (eval P x) Q E s := by
  refine wp_eval hnx ?_ ?_
  · intro f hf hl
    refine hq f _ hl rfl rfl ⟨ht.inv, ht.id, ht.tol, ?_, ?_, ?_, ht.faults⟩
    · rw [← List.append_assoc, ← ht.evs]
    · intro p hp
      rcases List.mem_append.mp hp with hp | hp
      · exact ht.box p hp
      · rw [List.mem_singleton.mp hp]; exact hx
    · intro p hp
      rcases List.mem_append.mp hp with hp | hp
      · exact ht.user p hp
      · rw [List.mem_singleton.mp hp]; exact ⟨_, hf.symm⟩
  · intro e r hu
    refine he e _ ⟨new ++ [(x, r)], ?_, ?_, Or.inl hu⟩
    · rw [← List.append_assoc, ← ht.evs]
    · intro p hp
      rcases List.mem_append.mp hp with hp | hp
      · exact ht.box p hp
      · rw [List.mem_singleton.mp hp]; exact hx

theorem wp_eval_tracked {P : AProb K} {s0 s : St K σ} {new : List (ECall K)} {x : List (Fl K)}
    {Q : List (Fl K) → St K σ → Prop} {E : Exn → St K σ → Prop} (hnx : P.info.nx = P.lb.length)
    (ht : Tracked P s0 new s) (hx : InBox P.lb P.ub 0 x)
    (hq : ∀ f s', f.length = P.info.nf → s'.pop = s.pop → s'.e = s.e → Tracked P s0 (new ++ [(x, .ok f)]) s' → Q f s')
    (he : ∀ e s', RunFailed P s0 e s' → E e s') : wp (eval P x) Q E s :=
  wp_eval_by (by rw [hnx]; exact hx.1) ht hx hq he

section
variable [IsStrictOrderedRing K]

theorem wp_setXF_tracked {B : List (Fl K) → Prop} {v : Env K σ} {P : AProb K} {s0 s : St K σ} {new : List (ECall K)} {i : Nat}
    {x f : List (Fl K)} {Q : Unit → St K σ → Prop} {E : Exn → St K σ → Prop} (hnx : 0 < P.info.nx)
    (hnobj : 0 < P.info.nobj) (ht : TrackedBy B P s0 new s) (hi : i < s.pop.id.length) (hx : x.length = P.info.nx)
    (hf : f.length = P.info.nf)
    (hq : ∀ s', TrackedBy B P s0 new s' → s'.e = s.e → s'.pop.x = s.pop.x.set i x → s'.pop.f = s.pop.f.set i f →
      ChStep v.sq P.info x f s.pop (s'.pop.chX, s'.pop.chF) → Q () s')
    (he : ∀ e s', FailedBy B P s0 e s' → E e s') : wp (onPop (setXF v.sq P.info i x f)) Q E s := by
  rw [wp_onPop]
  have hinv := ht.inv
  have key := op_run (sq := v.sq) hnx hnobj hinv (.setXF i x f)
  refine (key.and (m := Op.run v.sq P.info (.setXF i x f))
    (wp_setXF (E := fun e p => e = .badAlloc ∧ s.pop.faults ≠ [])
      (Q := fun _ p => s.pop.faults = [] → p.faults = []) hnx hnobj hinv.tol hinv.ch hinv.wf.xs hinv.wf.fs
      (fun _ _ _ t h _ _ => h) (fun h => ?_) (fun h t => ⟨rfl, h⟩))).mono ?_ ?_
  · omega
  · rintro _ p ⟨⟨hi', he', _, htol, x', f', hins, hx', hf', hc⟩, hfa⟩
    simp only [Op.inserts, Option.some.injEq, Prod.mk.injEq] at hins
    rw [← hins.1, ← hins.2] at hc
    obtain ⟨_, h1, h2, h3⟩ := he'
    exact hq _ ⟨hi', h1.trans ht.id, htol.trans ht.tol, ht.evs, ht.box, ht.user, fun h => hfa (ht.faults h)⟩ rfl h2 h3 hc
  · rintro e' p ⟨_, h⟩
    exact he e' _ ⟨new, ht.evs, ht.box, Or.inr ⟨h.1, fun h' => h.2 (ht.faults h')⟩⟩

end

/-- The main loop of the algorithms. `I k b s`: holds after `k` generations. -/
theorem wp_genLoop {β : Type} {body : Nat → β → Run (St K σ) (β × Bool)} {gens : Nat} (hgens : gens + 1 < 2 ^ 32)
    {E : Exn → St K σ → Prop} (I : Nat → β → St K σ → Prop)
    (hb : ∀ k b s, k < gens → I k b s → wp (body (k + 1) b) (fun r s' => I (k + 1) r.1 s') E s) :
    ∀ (fuel k : Nat) (b : β) (s : St K σ), k ≤ gens → gens - k < fuel → I k b s →
      wp (genLoop body gens fuel (k + 1) b) (fun b' s' => ∃ k' ≤ gens, k ≤ k' ∧ (k < gens → k < k') ∧ I k' b' s') E s := by
  intro fuel
  induction fuel with
  | zero => intro k b s _ h _; omega
  | succ n ih =>
    intro k b s hk hf hI
    rw [genLoop]
    split
    · rename_i hlt
      rw [wp_bind]
      refine (hb k b s (by omega) hI).mono ?_ (fun _ _ h => h)
      intro r s' hr
      split
      · exact ⟨k + 1, by omega, by omega, by omega, hr⟩
      · rw [show incU (k + 1) = k + 1 + 1 from incU_eq (by omega)]
        refine (ih (k + 1) r.1 s' (by omega) (by omega) hr).mono ?_ (fun _ _ h => h)
        rintro b' s'' ⟨k', h1, h2, _, h3⟩
        exact ⟨k', h1, by omega, by omega, h3⟩
    · exact ⟨k, hk, le_rfl, by omega, hI⟩

/-! ### best and worst index -/

theorem minElement_lt (vs : List (List (Fl K))) :
    ∀ (best : List (Fl K)) (bi i : Nat), bi < i → minElement vs best bi i < i + vs.length := by
  induction vs with
  | nil => intro best bi i h; simpa [minElement] using h
  | cons v vs ih =>
    intro best bi i h
    rw [minElement]
    split
    · have := ih v i (i + 1) (by omega); simp only [List.length_cons]; omega
    · have := ih best bi (i + 1) (by omega); simp only [List.length_cons]; omega

theorem maxElement_lt (vs : List (List (Fl K))) :
    ∀ (best : List (Fl K)) (bi i : Nat), bi < i → maxElement vs best bi i < i + vs.length := by
  induction vs with
  | nil => intro best bi i h; simpa [maxElement] using h
  | cons v vs ih =>
    intro best bi i h
    rw [maxElement]
    split
    · have := ih v i (i + 1) (by omega); simp only [List.length_cons]; omega
    · have := ih best bi (i + 1) (by omega); simp only [List.length_cons]; omega

/-- `best_idx()` and `worst_idx()` of an unconstrained problem give an index, whatever the fitnesses (NaN included). -/
theorem idx_lt {srt : (Nat → Nat → Bool) → List Nat → List Nat} {sq : Fl K → Fl K} {P : Info}
    (hnobj : P.nobj = 1) (hnc : P.nc = 0) {fs : List (List (Fl K))} (hne : fs ≠ []) (hsz : fs.length ≤ 2 ^ 63)
    (tol : List (Fl K)) :
    (∃ i, bestIdx srt sq P fs tol = .ok i ∧ i < fs.length) ∧ (∃ i, worstIdx srt sq P fs tol = .ok i ∧ i < fs.length) := by
  obtain ⟨f0, rest, rfl⟩ := List.exists_cons_of_ne_nil hne
  constructor
  · refine ⟨minElement rest f0 0 1, ?_, ?_⟩
    · unfold bestIdx
      dsimp only
      rw [if_neg (by omega), if_neg (by omega), if_neg (by omega)]
    · have := minElement_lt rest f0 0 1 (by omega); simp only [List.length_cons]; omega
  · refine ⟨maxElement rest f0 0 1, ?_, ?_⟩
    · unfold worstIdx
      dsimp only
      rw [if_neg (by omega), if_neg (by omega), if_neg (by omega)]
    · have := maxElement_lt rest f0 0 1 (by omega); simp only [List.length_cons]; omega

/-! ### boxes -/

theorem allFin_of_box {P : AProb K} (hP : FiniteBox P) {x : List (Fl K)} (hx : InBox P.lb P.ub 0 x) : AllFin x := by
  intro w hw
  obtain ⟨i, hi, rfl⟩ := List.getElem_of_mem hw
  have h1 : i < P.lb.length := by rw [← hx.1]; exact hi
  have h2 : i < P.ub.length := by rw [← hP.bounds.len]; exact h1
  have h := hx.2 i _ _ _ (List.getElem?_eq_getElem h1) (List.getElem?_eq_getElem h2) (List.getElem?_eq_getElem hi)
  obtain ⟨a, ha⟩ := hP.finL _ (List.getElem_mem h1)
  obtain ⟨b, hb⟩ := hP.finU _ (List.getElem_mem h2)
  have h3 := h.1
  have h4 := h.2.1
  rw [ha] at h3
  rw [hb] at h4
  cases hx : x[i] with
  | fin c => exact ⟨c, rfl⟩
  | nan => rw [hx] at h4; exact absurd h4 (by simp [Fl.le_def, Fl.cls])
  | pinf => rw [hx] at h4; exact absurd h4 (by simp [Fl.le_def, Fl.cls])
  | ninf => rw [hx] at h3; exact absurd h3 (by simp [Fl.le_def, Fl.cls])

/-- `force_bounds_random` on a vector without NaN, for a problem with finite bounds whose width does not overflow. -/
theorem wp_repair {P : AProb K} (hP : FiniteBox P) {g : Gen K σ} {rep : K → Prop} {op : Fl.Ops K} (hg : g.Lawful rep)
    (hop : NoOverflow op) {x : List (Fl K)} (hl : x.length = P.lb.length) (hx : AllFin x) {s : σ}
    {Q : List (Fl K) → σ → Prop} {E : Exn → σ → Prop} (hq : ∀ y s', InBox P.lb P.ub 0 y → Q y s') :
    wp (Rnd.forceBoundsRandom g op x P.lb P.ub) Q E s := by
  have hb : BoxFor P.lb P.ub x := ⟨hl.symm, by rw [← hP.bounds.len]; exact hl.symm,
    fun i l u h1 h2 => ⟨(hP.bounds.ordered i l u h1 h2).2.2, (hP.bounds.ordered i l u h1 h2).2.1⟩⟩
  refine (C48_random hg P.lb P.ub x hb (fun v hv => ?_) s).mono ?_ ?_
  · obtain ⟨a, rfl⟩ := hx v hv; simp
  · intro y s' hy
    refine hq y s' (inBox0 (hy.1.trans hl) ?_)
    intro i l u w h1 h2 h3
    have hi : i < x.length := by rw [← hy.1]; exact (List.getElem?_eq_some_iff.mp h3).1
    have := hy.2 i l u _ w h1 h2 (List.getElem?_eq_getElem hi) h3
    exact ⟨this.1, this.2.1⟩
  · rintro e s' ⟨_, i, l, u, w, h1, h2, _, _, h5⟩
    exfalso
    obtain ⟨a, rfl⟩ := hP.finL l (List.mem_of_getElem? h1)
    obtain ⟨b, rfl⟩ := hP.finU u (List.mem_of_getElem? h2)
    obtain ⟨c, hc⟩ := hop.sub b a
    exact h5 ⟨rfl, rfl, by rw [hc]; rfl⟩

end Verif.Props
