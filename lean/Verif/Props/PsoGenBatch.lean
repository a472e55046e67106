import Verif.Props.PsoGen
import Verif.Props.GacoArchive
import Verif.Props.Nsga2Batch

/-!
# C159: pso_gen with a batch evaluator does what it does without
-/

set_option autoImplicit false
set_option linter.unusedSectionVars false

namespace Verif.Props

open Verif Alg Genetic Pop Run

variable {K σ : Type} [Field K] [LinearOrder K]

/-- the evaluation of the swarm -/
theorem pgFit_batch {P : AProb K} {b : Batch K} {F : List (Fl K) → List (Fl K)} (hF : BatchOf P b F) (hnx : 0 < P.info.nx) (hnf : 0 < P.info.nf)
    (hnc : P.info.nc = 0) {c : PsoVars K} (hx : ∀ x ∈ c.xs, x.length = P.info.nx) :
    (pgFit P (some b) c : Run (St K σ) (List (List (Fl K)))) = pgFit P none c := by
  have seq : ∀ (ys acc : List (List (Fl K))) (s : St K σ), (∀ x ∈ ys, x.length = P.info.nx) →
      ys.foldlM (pgEval P) acc s = (Outcome.ok (acc ++ ys.map F), { s with evs := s.evs ++ ys.map (fun x => (x, Except.ok (F x))) }) := by
    intro ys
    induction ys with
    | nil => intro acc s _; simp [List.foldlM, Pure.pure]
    | cons y ys ih =>
      intro acc s hy
      rw [List.foldlM_cons]
      show Run.bind _ _ s = _
      have h1 : pgEval P acc y s = (Outcome.ok (acc ++ [F y]), { s with evs := s.evs ++ [(y, Except.ok (F y))] }) := by
        unfold pgEval
        show Run.bind _ _ s = _
        unfold Run.bind
        rw [nb_eval hF (hy y (by simp))]
        rfl
      unfold Run.bind
      rw [h1]
      dsimp only
      rw [ih _ _ (fun x hx => hy x (by simp [hx]))]
      simp
  funext s
  show evalBatch P b c.xs s = c.xs.foldlM (pgEval P) [] s
  rw [seq c.xs [] s hx, evalBatch_of hF hnx hnf hnc hx]
  simp

theorem outSet_mem {α : Type} {l l' : List α} {i : Nat} {a : α} {Q : α → Prop} (h : Outcome.set l i a = .ok l') (hl : ∀ x ∈ l, Q x) (ha : Q a) :
    ∀ x ∈ l', Q x := by
  unfold Outcome.set at h
  split at h
  · cases h
    intro x hx
    rcases List.mem_or_eq_of_mem_set hx with hx | rfl
    · exact hl x hx
    · exact ha
  · cases h

theorem outGet_mem {α : Type} {l : List α} {i : Nat} {a : α} (h : Outcome.get l i = .ok a) : a ∈ l := by
  unfold Outcome.get at h
  split at h
  · rename_i hi
    cases h
    exact List.mem_of_getElem? hi
  · cases h

theorem outBind_ok {α β : Type} {o : Outcome α} {k : α → Outcome β} {b : β} (h : (o >>= k) = .ok b) : ∃ a, o = .ok a ∧ k a = .ok b := by
  cases o with
  | ok a => exact ⟨a, rfl, h⟩
  | _ => cases h

theorem outFold {α β : Type} {f : β → α → Outcome β} {Q : β → Prop} (hf : ∀ b a b', Q b → f b a = .ok b' → Q b') : ∀ (l : List α) (b b' : β), Q b →
    l.foldlM f b = .ok b' → Q b' := by
  intro l
  induction l with
  | nil => intro b b' hb h; cases h; exact hb
  | cons a l ih =>
    intro b b' hb h
    rw [List.foldlM_cons] at h
    obtain ⟨b1, h1, h2⟩ := outBind_ok h
    exact ih b1 b' (hf b a b1 hb h1) h2

/-- all positions have the dimension of the problem -/
def PgDim (P : AProb K) (c : PsoVars K) : Prop := ∀ x ∈ c.xs, x.length = P.info.nx

theorem pgSteer_dim (v : Env K σ) (P : AProb K) (A : Pso K) (c : PsoVars K) (p : Nat) (h : PgDim P c) : OnOk (pgSteer v P A c p) (PgDim P) := by
  unfold pgSteer
  exact onOk_bind (onOk_true _) fun _ _ => onOk_bind (onOk_true _) fun _ _ => onOk_bind (onOk_true _) fun _ _ => onOk_bind (onOk_true _) fun _ _ =>
    onOk_bind (onOk_true _) fun _ _ => onOk_bind (onOk_true _) fun _ _ => onOk_bind (onOk_true _) fun _ _ => onOk_pure h

theorem pgAdvance_dim (op : Fl.Ops K) (P : AProb K) (A : Pso K) (c c' : PsoVars K) (p : Nat) (h : PgDim P c) (e : pgAdvance op P A c p = .ok c') : PgDim P c' := by
  unfold pgAdvance at e
  obtain ⟨x, h1, e⟩ := outBind_ok e
  obtain ⟨w, h2, e⟩ := outBind_ok e
  obtain ⟨xw, h3, e⟩ := outBind_ok e
  obtain ⟨xs, h4, e⟩ := outBind_ok e
  obtain ⟨vel, h5, e⟩ := outBind_ok e
  cases e
  refine outSet_mem (Q := fun x : List (Fl K) => x.length = P.info.nx) h4 h ?_
  refine outFold (Q := fun xw : List (Fl K) × List (Fl K) => xw.1.length = P.info.nx) ?_ _ _ _ (h x (outGet_mem h1)) h3
  intro a d a' ha e
  unfold psoMoveAt at e
  obtain ⟨_, -, e⟩ := outBind_ok e
  obtain ⟨_, -, e⟩ := outBind_ok e
  obtain ⟨_, -, e⟩ := outBind_ok e
  obtain ⟨_, -, e⟩ := outBind_ok e
  obtain ⟨_, -, e⟩ := outBind_ok e
  obtain ⟨_, -, e⟩ := outBind_ok e
  obtain ⟨x', h1, e⟩ := outBind_ok e
  obtain ⟨w', -, e⟩ := outBind_ok e
  cases e
  exact (set_length h1).trans ha

theorem pgKeep_xs (A : Pso K) (fit : List (List (Fl K))) (c c' : PsoVars K) (p : Nat) (e : pgKeep A fit c p = .ok c') : c'.xs = c.xs := by
  unfold pgKeep at e
  obtain ⟨_, -, e⟩ := outBind_ok e
  obtain ⟨_, -, e⟩ := outBind_ok e
  obtain ⟨_, -, e⟩ := outBind_ok e
  obtain ⟨_, -, e⟩ := outBind_ok e
  split at e
  · obtain ⟨_, -, e⟩ := outBind_ok e
    obtain ⟨_, -, e⟩ := outBind_ok e
    obtain ⟨_, -, e⟩ := outBind_ok e
    unfold pgKeepBest at e
    split at e
    · obtain ⟨_, -, e⟩ := outBind_ok e
      split at e <;> cases e <;> rfl
    · cases e; rfl
  · cases e; rfl

/-- the loop over the generations, with an invariant of its variables -/
theorem genLoop_congr_onOk {β : Type} {f f' : Nat → β → Run (St K σ) (β × Bool)} {Q : β → Prop} (h : ∀ g b, Q b → f g b = f' g b)
    (hk : ∀ g b, Q b → OnOk (f g b) (fun r => Q r.1)) (gens : Nat) : ∀ (fuel g : Nat) (b : β), Q b → genLoop f gens fuel g b = genLoop f' gens fuel g b := by
  intro fuel
  induction fuel with
  | zero => intro g b _; rfl
  | succ n ih =>
    intro g b hb
    rw [genLoop, genLoop]
    split
    · rw [← h g b hb]
      refine bind_congr_onOk (hk g b hb) fun r hr => ?_
      split
      · rfl
      · exact ih _ _ hr
    · rfl

/-- C159 (batch evaluation). If the fitness is a function of the point and the batch evaluator computes this function for each point, then a run of pso_gen on a
problem that is not stochastic does exactly the same with the batch evaluator as without, also if it fails: same outcome, same velocities, same population, same
random engine, same evaluations in the same order. -/
theorem C159_batch (v : Env K σ) (P : AProb K) (A : Pso K) (b : Batch K) (F : List (Fl K) → List (Fl K)) (hF : BatchOf P b F) (hnx : 0 < P.info.nx)
    (hst : P.info.stochastic = false) (fuel : Nat) (V : List (List (Fl K))) (s : St K σ) (hi : ∀ x ∈ s.pop.x, x.length = P.info.nx) :
    psoGenEvolve v P A (some b) fuel V s = psoGenEvolve v P A none fuel V s := by
  unfold psoGenEvolve
  by_cases hnc : P.info.nc = 0
  swap
  · simp only [hnc, ne_eq, not_false_eq_true, if_true]
  by_cases hnf : P.info.nf = 1
  swap
  · simp only [hnc, hnf, ne_eq, not_true_eq_false, not_false_eq_true, if_true, if_false]
  simp only [hnc, hnf, ne_eq, not_true_eq_false, if_false]
  have gen : ∀ n g (c : PsoVars K), PgDim P c → pgGen v P A (some b) n g c = pgGen v P A none n g c := by
    intro n g c hc
    unfold pgGen
    refine bind_congr_onOk (onOk_onRng (onOk_foldlM (fun c p h => pgSteer_dim v P A c p h) _ _ hc)) fun c1 h1 => ?_
    refine bind_congr_onOk (Q := PgDim P) (onOk_lift fun c2 e => outFold (fun _ _ _ => pgAdvance_dim _ _ _ _ _ _) _ _ _ h1 e) fun c2 h2 => ?_
    unfold pgEvals
    rw [hst, if_neg (by simp), if_neg (by simp), pgFit_batch hF hnx (by omega) hnc h2]
  have keep : ∀ n g (c : PsoVars K), PgDim P c → OnOk (pgGen v P A (some b) n g c) (fun r => PgDim P r.1) := by
    intro n g c hc
    unfold pgGen
    refine onOk_bind (onOk_onRng (onOk_foldlM (fun c p h => pgSteer_dim v P A c p h) _ _ hc)) fun c1 h1 => ?_
    refine onOk_bind (R := PgDim P) (onOk_lift fun c2 e => outFold (fun _ _ _ => pgAdvance_dim _ _ _ _ _ _) _ _ _ h1 e) fun c2 h2 => ?_
    refine onOk_bind (R := fun r => PgDim P r.2) ?_ fun fc h3 => onOk_bind (R := PgDim P) ?_ fun c4 h4 => onOk_bind (R := PgDim P) ?_ fun c5 h5 => onOk_pure h5
    · unfold pgEvals
      rw [hst, if_neg (by simp)]
      exact onOk_bind (onOk_true _) fun _ _ => onOk_pure h2
    · refine onOk_lift fun c4 e => outFold (Q := PgDim P) ?_ _ _ _ (show PgDim P { fc.2 with improved := false } from h3) e
      intro a p a' ha e
      unfold PgDim
      rw [pgKeep_xs _ _ _ _ _ e]
      exact ha
    · unfold psoRewire
      split
      · exact onOk_bind (onOk_true _) fun _ _ => onOk_pure h4
      · exact onOk_pure h4
  show Run.bind _ _ s = Run.bind _ _ s
  simp only [Run.bind, Run.get]
  split
  · rfl
  · refine congrFun ?_ s
    refine bind_congr_onOk (onOk_true _) fun V' _ => bind_congr_onOk (onOk_true _) fun t _ => ?_
    rw [genLoop_congr_onOk (gen _) (keep _) A.gens fuel 1 _ (show PgDim P ⟨s.pop.x, V', s.pop.x, s.pop.f, t.1, t.2.1, t.2.2, false⟩ from hi)]

/-! ## Examples -/

/-- The hypotheses hold for the example, -/
example : psoGenEvolve algDemoEnv algDemo (psoDemo 2 5 2 4) (some gaSqBatch) 3 [] deDemoSt = psoGenEvolve algDemoEnv algDemo (psoDemo 2 5 2 4) none 3 [] deDemoSt :=
  C159_batch algDemoEnv algDemo _ gaSqBatch _ gaSqBatch_of (by decide) rfl 3 [] deDemoSt deDemo_inv.wf.dimX

/-- whose run evaluates all particles in each of the two generations. -/
example : (psoGenEvolve algDemoEnv algDemo (psoDemo 2 5 2 4) (some gaSqBatch) 3 [] deDemoSt).2.evs.length = 2 * deDemoSt.pop.id.length := by decide +kernel

/-- C159. For a problem that is declared to be stochastic the order of the evaluations differs: with the batch evaluator all new positions come before all best
positions, without they take turns. -/
theorem C159_stochastic_order :
    (psoGenEvolve algDemoEnv pgNoisy (psoDemo 1 5 2 4) (some gaSqBatch) 3 [] deDemoSt).2.evs ≠ (psoGenEvolve algDemoEnv pgNoisy (psoDemo 1 5 2 4) none 3 [] deDemoSt).2.evs := by
  decide +kernel

end Verif.Props
