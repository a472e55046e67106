import Verif.Props.Nspso

/-!
# C157: nsga2 with a batch evaluator does what it does without
-/

set_option autoImplicit false
set_option linter.unusedSectionVars false

namespace Verif.Props

open Verif Alg Genetic Pop Run

variable {K σ : Type} [Field K] [LinearOrder K]

/-! ## Children are as long as their parents -/

theorem onOk_setLen {τ : Type} {l : List (Fl K)} {n i : Nat} {a : Fl K} (h : l.length = n) :
    OnOk (Run.lift (Outcome.set l i a) : Run τ (List (Fl K))) (fun r => r.length = n) := by
  refine onOk_lift fun r hr => ?_
  unfold Outcome.set at hr
  split at hr
  · cases hr; rw [List.length_set, h]
  · cases hr

theorem onOk_ite {τ α : Type} {c : Prop} [Decidable c] {m m' : Run τ α} {Q : α → Prop} (h : OnOk m Q) (h' : OnOk m' Q) : OnOk (if c then m else m') Q := by
  split
  · exact h
  · exact h'

theorem onOk_sbx (g : Gen K σ) (pw : Fl K → Fl K → Fl K) (op : Fl.Ops K) {p1 p2 : List (Fl K)} (lb ub : List (Fl K)) (nix : Nat) (pCr eta : Fl K) {n : Nat}
    (h1 : p1.length = n) (h2 : p2.length = n) : OnOk (sbxImpl g pw op p1 p2 lb ub nix pCr eta) (fun c => c.1.length = n ∧ c.2.length = n) := by
  unfold sbxImpl
  refine onOk_bind (onOk_true _) fun _ _ => onOk_ite (onOk_bind
    (Q := fun c : List (Fl K) × List (Fl K) => c.1.length = n ∧ c.2.length = n) (R := fun c : List (Fl K) × List (Fl K) => c.1.length = n ∧ c.2.length = n) (onOk_foldlM ?_ _ _ ⟨h1, h2⟩) ?_) (onOk_pure ⟨h1, h2⟩)
  · intro ch i hc
    unfold sbxGene
    refine onOk_bind (onOk_true _) fun _ _ => onOk_bind (onOk_true _) fun _ _ => onOk_bind (onOk_true _) fun _ _ => onOk_bind (onOk_true _) fun _ _ =>
      onOk_bind (onOk_true _) fun _ _ => onOk_ite ?_ (onOk_pure hc)
    refine onOk_bind (onOk_true _) fun _ _ => onOk_bind (onOk_true _) fun _ _ => onOk_ite ?_ ?_ <;>
      exact onOk_bind (onOk_setLen hc.1) fun _ k1 => onOk_bind (onOk_setLen hc.2) fun _ k2 => onOk_pure ⟨k1, k2⟩
  · intro ch hc
    unfold sbxInteger
    refine onOk_ite (onOk_bind (onOk_true _) fun _ _ => onOk_bind (onOk_true _) fun _ _ => onOk_lift ?_) (onOk_pure hc)
    have key : ∀ (l : List Nat) (c r : List (Fl K) × List (Fl K)), (c.1.length = n ∧ c.2.length = n) → l.foldlM (swapGene p1 p2) c = .ok r →
        r.1.length = n ∧ r.2.length = n := by
      intro l
      induction l with
      | nil => intro c r hc e; cases e; exact hc
      | cons j l ih =>
        intro c r hc e
        rw [List.foldlM_cons] at e
        unfold swapGene at e
        by_cases j1 : j < p1.length
        swap
        · rw [show Outcome.get p1 j = .ub by unfold Outcome.get; rw [List.getElem?_eq_none (by omega)]] at e; cases e
        rw [Outcome.get_of_lt j1, Outcome.bind_ok] at e
        by_cases j2 : j < p2.length
        swap
        · rw [show Outcome.get p2 j = .ub by unfold Outcome.get; rw [List.getElem?_eq_none (by omega)]] at e; cases e
        rw [Outcome.get_of_lt j2, Outcome.bind_ok, Outcome.set_of_lt (by omega), Outcome.bind_ok, Outcome.set_of_lt (by omega), Outcome.bind_ok,
          Outcome.bind_ok] at e
        exact ih _ _ ⟨by simpa using hc.1, by simpa using hc.2⟩ e
    exact fun r hr => key _ _ _ hc hr

variable [FloorRing K]

theorem onOk_poly (g : Gen K σ) (pw : Fl K → Fl K → Fl K) (op : Fl.Ops K) {x : List (Fl K)} (lb ub : List (Fl K)) (nix : Nat) (pM eta : Fl K) {n : Nat}
    (h : x.length = n) : OnOk (polyImpl g pw op x lb ub nix pM eta) (fun y => y.length = n) := by
  unfold polyImpl
  refine onOk_bind (R := fun y => y.length = n) (onOk_foldlM ?_ _ _ h) fun y hy => onOk_foldlM ?_ _ _ hy
  · intro y j hy
    unfold polyGene
    refine onOk_bind (onOk_true _) fun _ _ => onOk_bind (onOk_true _) fun _ _ => onOk_bind (onOk_true _) fun _ _ => onOk_bind (onOk_true _) fun _ _ =>
      onOk_ite (onOk_bind (onOk_true _) fun _ _ => onOk_setLen hy) (onOk_pure hy)
  · intro y j hy
    unfold polyInt
    refine onOk_bind (onOk_true _) fun _ _ => onOk_bind (onOk_true _) fun _ _ => onOk_bind (onOk_true _) fun _ _ =>
      onOk_ite (onOk_bind (onOk_true _) fun _ _ => onOk_setLen hy) (onOk_pure hy)

theorem onOk_breed (v : MoEnv K σ) (P : AProb K) (A : Nsga2 K) {xs : List (List (Fl K))} (rank : List Nat) (cd : List (Fl K)) (sh : List Nat) (i : Nat) {n : Nat}
    (hx : ∀ x ∈ xs, x.length = n) : OnOk (nsgaBreed v P A xs rank cd sh i) (fun c => c.1.length = n ∧ c.2.length = n) := by
  have get : ∀ p, OnOk (Run.lift (Outcome.get xs p) : Run σ (List (Fl K))) (fun x => x.length = n) := by
    intro p
    refine onOk_lift fun x e => ?_
    by_cases hp : p < xs.length
    · rw [Outcome.get_of_lt hp] at e
      cases e
      exact hx _ (List.getElem_mem _)
    · rw [show Outcome.get xs p = .ub by unfold Outcome.get; rw [List.getElem?_eq_none (by omega)]] at e; cases e
  unfold nsgaBreed
  exact onOk_bind (onOk_true _) fun _ _ => onOk_bind (onOk_true _) fun _ _ => onOk_bind (onOk_true _) fun _ _ => onOk_bind (onOk_true _) fun _ _ =>
    onOk_bind (onOk_true _) fun _ _ => onOk_bind (onOk_true _) fun _ _ => onOk_bind (get _) fun _ k1 => onOk_bind (get _) fun _ k2 =>
    onOk_bind (onOk_sbx _ _ _ _ _ _ _ _ k1 k2) fun _ k => onOk_bind (onOk_poly _ _ _ _ _ _ _ _ k.1) fun _ m1 =>
    onOk_bind (onOk_poly _ _ _ _ _ _ _ _ k.2) fun _ m2 => onOk_pure ⟨m1, m2⟩

/-! ## The two loops -/

omit [FloorRing K] in
theorem nb_eval {P : AProb K} {b : Batch K} {F : List (Fl K) → List (Fl K)} (hF : BatchOf P b F) {x : List (Fl K)} (hx : x.length = P.info.nx) (s : St K σ) :
    eval P x s = (.ok (F x), { s with evs := s.evs ++ [(x, Except.ok (F x))] }) := by
  unfold eval
  simp [Pop.probFitness, hF.fit _ x hx, hF.dim x hx, hx]

theorem nb_onRng {α : Type} {m : Run σ α} {s s' : St K σ} {a : α} :
    onRng m s = (.ok a, s') ↔ m s.e = (.ok a, s'.e) ∧ s' = { s with e := s'.e } := by
  unfold onRng
  constructor
  · intro h
    obtain ⟨h1, h2⟩ := Prod.mk.inj h
    subst h2
    exact ⟨Prod.ext h1 rfl, rfl⟩
  · rintro ⟨h1, h2⟩
    rw [h1]
    exact Prod.ext rfl h2.symm

/-- one step of the loop without batch evaluator -/
theorem nb_step (v : MoEnv K σ) {P : AProb K} (A : Nsga2 K) {b : Batch K} {F : List (Fl K) → List (Fl K)} (hF : BatchOf P b F) {xs : List (List (Fl K))}
    (hx : ∀ x ∈ xs, x.length = P.info.nx) (rank : List Nat) (cd : List (Fl K)) (sh1 sh2 : List Nat) (k : Nat) (acc' r : List (List (Fl K) × List (Fl K)))
    (s s' : St K σ) :
    nsgaEvalFour v P A xs rank cd sh1 sh2 acc' k s = (.ok r, s') ↔
      ∃ c e1 d e2, nsgaBreed v P A xs rank cd sh1 (4 * k) s.e = (.ok c, e1) ∧ nsgaBreed v P A xs rank cd sh2 (4 * k) e1 = (.ok d, e2) ∧
        r = acc' ++ [c.1, c.2, d.1, d.2].map (fun x => (x, F x)) ∧
        s' = { s with e := e2, evs := s.evs ++ [c.1, c.2, d.1, d.2].map (fun x => (x, Except.ok (F x))) } := by
  unfold nsgaEvalFour
  show Run.bind _ _ _ = _ ↔ _
  rw [bind_ok_iff]
  constructor
  · rintro ⟨c, s1, h1, h2⟩
    obtain ⟨h1, h1'⟩ := nb_onRng.mp h1
    obtain ⟨c1, c2⟩ := onOk_breed v P A rank cd sh1 (4 * k) hx _ _ _ h1
    replace h2 : Run.bind _ _ _ = _ := h2
    obtain ⟨f1, s2, h3, h4⟩ := bind_ok_iff.mp h2
    rw [nb_eval hF c1] at h3
    obtain ⟨h3, h3'⟩ := Prod.mk.inj h3
    cases h3
    replace h4 : Run.bind _ _ _ = _ := h4
    obtain ⟨f2, s3, h5, h6⟩ := bind_ok_iff.mp h4
    rw [nb_eval hF c2] at h5
    obtain ⟨h5, h5'⟩ := Prod.mk.inj h5
    cases h5
    replace h6 : Run.bind _ _ _ = _ := h6
    obtain ⟨d, s4, h7, h8⟩ := bind_ok_iff.mp h6
    obtain ⟨h7, h7'⟩ := nb_onRng.mp h7
    obtain ⟨d1, d2⟩ := onOk_breed v P A rank cd sh2 (4 * k) hx _ _ _ h7
    replace h8 : Run.bind _ _ _ = _ := h8
    obtain ⟨f3, s5, h9, h10⟩ := bind_ok_iff.mp h8
    rw [nb_eval hF d1] at h9
    obtain ⟨h9, h9'⟩ := Prod.mk.inj h9
    cases h9
    replace h10 : Run.bind _ _ _ = _ := h10
    obtain ⟨f4, s6, h11, h12⟩ := bind_ok_iff.mp h10
    rw [nb_eval hF d2] at h11
    obtain ⟨h11, h11'⟩ := Prod.mk.inj h11
    cases h11
    cases h12
    refine ⟨c, s1.e, d, s4.e, h1, ?_, rfl, ?_⟩
    · rw [← h5', ← h3'] at h7
      exact h7
    · rw [← h11', ← h9', h7', ← h5', ← h3', h1']
      simp
  · rintro ⟨c, e1, d, e2, h1, h2, rfl, rfl⟩
    obtain ⟨c1, c2⟩ := onOk_breed v P A rank cd sh1 (4 * k) hx _ _ _ h1
    obtain ⟨d1, d2⟩ := onOk_breed v P A rank cd sh2 (4 * k) hx _ _ _ h2
    refine ⟨c, { s with e := e1 }, nb_onRng.mpr ⟨h1, rfl⟩, ?_⟩
    show Run.bind _ _ _ = _
    refine bind_ok_iff.mpr ⟨_, _, nb_eval hF c1 _, ?_⟩
    show Run.bind _ _ _ = _
    refine bind_ok_iff.mpr ⟨_, _, nb_eval hF c2 _, ?_⟩
    show Run.bind _ _ _ = _
    refine bind_ok_iff.mpr ⟨d, { s with e := e2, evs := s.evs ++ [(c.1, Except.ok (F c.1))] ++ [(c.2, Except.ok (F c.2))] }, nb_onRng.mpr ⟨h2, rfl⟩, ?_⟩
    show Run.bind _ _ _ = _
    refine bind_ok_iff.mpr ⟨_, _, nb_eval hF d1 _, ?_⟩
    show Run.bind _ _ _ = _
    refine bind_ok_iff.mpr ⟨_, _, nb_eval hF d2 _, ?_⟩
    simp [Pure.pure]

/-- one step of the loop with batch evaluator -/
theorem nb_four (v : MoEnv K σ) {P : AProb K} (A : Nsga2 K) (xs : List (List (Fl K))) (rank : List Nat) (cd : List (Fl K)) (sh1 sh2 : List Nat) (k : Nat)
    (acc r : List (List (Fl K))) (e e' : σ) :
    nsgaFour v P A xs rank cd sh1 sh2 acc k e = (.ok r, e') ↔
      ∃ c e1 d, nsgaBreed v P A xs rank cd sh1 (4 * k) e = (.ok c, e1) ∧ nsgaBreed v P A xs rank cd sh2 (4 * k) e1 = (.ok d, e') ∧
        r = acc ++ [c.1, c.2, d.1, d.2] := by
  unfold nsgaFour
  show Run.bind _ _ _ = _ ↔ _
  rw [bind_ok_iff]
  constructor
  · rintro ⟨c, e1, h1, h2⟩
    replace h2 : Run.bind _ _ _ = _ := h2
    obtain ⟨d, e2, h3, h4⟩ := bind_ok_iff.mp h2
    cases h4
    exact ⟨c, e1, d, h1, h3, rfl⟩
  · rintro ⟨c, e1, d, h1, h2, rfl⟩
    refine ⟨c, e1, h1, ?_⟩
    show Run.bind _ _ _ = _
    exact bind_ok_iff.mpr ⟨d, e', h2, rfl⟩

/-- the loops -/
theorem nb_loops (v : MoEnv K σ) {P : AProb K} (A : Nsga2 K) {b : Batch K} {F : List (Fl K) → List (Fl K)} (hF : BatchOf P b F) {xs : List (List (Fl K))}
    (hx : ∀ x ∈ xs, x.length = P.info.nx) (rank : List Nat) (cd : List (Fl K)) (sh1 sh2 : List Nat) : ∀ (l : List Nat) (acc : List (List (Fl K)))
    (r : List (List (Fl K) × List (Fl K))) (s s' : St K σ),
    l.foldlM (nsgaEvalFour v P A xs rank cd sh1 sh2) (acc.map (fun x => (x, F x))) s = (.ok r, s') ↔
      ∃ ys e', l.foldlM (nsgaFour v P A xs rank cd sh1 sh2) acc s.e = (.ok (acc ++ ys), e') ∧ (∀ y ∈ ys, y.length = P.info.nx) ∧
        r = (acc ++ ys).map (fun x => (x, F x)) ∧ s' = { s with e := e', evs := s.evs ++ ys.map (fun x => (x, Except.ok (F x))) } := by
  intro l
  induction l with
  | nil =>
    intro acc r s s'
    constructor
    · intro h
      cases h
      exact ⟨[], s.e, by rw [List.append_nil]; rfl, by simp, by simp, by simp⟩
    · rintro ⟨ys, e', h1, -, h3, h4⟩
      replace h1 : ((.ok acc, s.e) : Outcome (List (List (Fl K))) × σ) = (.ok (acc ++ ys), e') := h1
      obtain ⟨h5, rfl⟩ := Prod.mk.inj h1
      have h5 := Outcome.ok.inj h5
      have : ys = [] := by simpa using h5
      subst this
      subst h3 h4
      simp [List.foldlM, Pure.pure]
  | cons k l ih =>
    intro acc r s s'
    rw [List.foldlM_cons, List.foldlM_cons]
    show Run.bind _ _ _ = _ ↔ ∃ ys e', Run.bind _ _ _ = _ ∧ _
    rw [bind_ok_iff]
    constructor
    · rintro ⟨r1, s1, h1, h2⟩
      obtain ⟨c, e1, d, e2, k1, k2, rfl, rfl⟩ := (nb_step v A hF hx rank cd sh1 sh2 k _ _ _ _).mp h1
      rw [← List.map_append] at h2
      obtain ⟨ys, e', m1, m2, m3, m4⟩ := (ih _ _ _ _).mp h2
      obtain ⟨c1, c2⟩ := onOk_breed v P A rank cd sh1 (4 * k) hx _ _ _ k1
      obtain ⟨d1, d2⟩ := onOk_breed v P A rank cd sh2 (4 * k) hx _ _ _ k2
      refine ⟨[c.1, c.2, d.1, d.2] ++ ys, e', bind_ok_iff.mpr ⟨_, e2, (nb_four v A xs rank cd sh1 sh2 k _ _ _ _).mpr ⟨c, e1, d, k1, k2, rfl⟩, ?_⟩, ?_, ?_, ?_⟩
      · rw [← List.append_assoc]; exact m1
      · intro y hy
        simp only [List.cons_append, List.nil_append, List.mem_cons] at hy
        rcases hy with rfl | rfl | rfl | rfl | hy
        · exact c1
        · exact c2
        · exact d1
        · exact d2
        · exact m2 y hy
      · rw [m3, List.append_assoc]
      · rw [m4]; simp
    · rintro ⟨ys, e', h1, h2, h3, h4⟩
      obtain ⟨r1, e2, h5, h6⟩ := bind_ok_iff.mp h1
      obtain ⟨c, e1, d, k1, k2, rfl⟩ := (nb_four v A xs rank cd sh1 sh2 k _ _ _ _).mp h5
      have hs := (nb_step v A hF hx rank cd sh1 sh2 k (acc.map (fun x => (x, F x))) _ s _).mpr ⟨c, e1, d, e2, k1, k2, rfl, rfl⟩
      refine ⟨_, _, hs, ?_⟩
      rw [← List.map_append]
      have hgrow : ∀ (l : List Nat) (acc r : List (List (Fl K))) (e e' : σ), l.foldlM (nsgaFour v P A xs rank cd sh1 sh2) acc e = (.ok r, e') → ∃ zs, r = acc ++ zs := by
        intro l
        induction l with
        | nil => intro acc r e e' h; cases h; exact ⟨[], by simp⟩
        | cons k l ih =>
          intro acc r e e' h
          rw [List.foldlM_cons] at h
          replace h : Run.bind _ _ _ = _ := h
          obtain ⟨r1, e2, h1, h2⟩ := bind_ok_iff.mp h
          obtain ⟨c, e1, d, -, -, rfl⟩ := (nb_four v A xs rank cd sh1 sh2 k _ _ _ _).mp h1
          obtain ⟨zs, rfl⟩ := ih _ _ _ _ h2
          exact ⟨[c.1, c.2, d.1, d.2] ++ zs, by simp⟩
      obtain ⟨zs, hz⟩ := hgrow _ _ _ _ _ h6
      rw [List.append_assoc, List.append_cancel_left_eq] at hz
      subst hz
      refine (ih _ _ _ _).mpr ⟨zs, e', ?_, ?_, ?_, ?_⟩
      · rw [List.append_assoc]; exact h6
      · exact fun y hy => h2 y (by simp [hy])
      · rw [h3, List.append_assoc]
      · rw [h4]; simp

/-- the offspring -/
theorem nb_kids (v : MoEnv K σ) {P : AProb K} (A : Nsga2 K) {b : Batch K} {F : List (Fl K) → List (Fl K)} (hF : BatchOf P b F) (hnx : 0 < P.info.nx)
    (hnf : 0 < P.info.nf) (hnc : P.info.nc = 0) {xs : List (List (Fl K))} (hx : ∀ x ∈ xs, x.length = P.info.nx) (NP : Nat) (rank : List Nat) (cd : List (Fl K))
    (sh1 sh2 : List Nat) (r : List (List (Fl K) × List (Fl K))) (s s' : St K σ) :
    nsgaKids v P { A with bfe := none } NP xs rank cd sh1 sh2 s = (.ok r, s') ↔ nsgaKids v P { A with bfe := some b } NP xs rank cd sh1 sh2 s = (.ok r, s') := by
  have hl := nb_loops v A hF hx rank cd sh1 sh2 (List.range (NP / 4)) [] r s s'
  have e1 : nsgaKids v P { A with bfe := none } NP xs rank cd sh1 sh2 s = (List.range (NP / 4)).foldlM (nsgaEvalFour v P A xs rank cd sh1 sh2) [] s := rfl
  rw [e1]
  refine hl.trans ?_
  show _ ↔ Run.bind (onRng ((List.range (NP / 4)).foldlM (nsgaFour v P A xs rank cd sh1 sh2) [])) (fun ys => evalBatch P b ys >>= fun fs => pure (ys.zip fs)) s = _
  rw [bind_ok_iff]
  have hz : ∀ l : List (List (Fl K)), l.zip (l.map F) = l.map (fun x => (x, F x)) := by
    intro l
    induction l with
    | nil => rfl
    | cons a l ih => simp only [List.zip_cons_cons, List.map_cons, ih]
  constructor
  · rintro ⟨ys, e', h1, h2, rfl, rfl⟩
    refine ⟨ys, { s with e := e' }, nb_onRng.mpr ⟨h1, rfl⟩, ?_⟩
    show Run.bind _ _ _ = _
    exact bind_ok_iff.mpr ⟨_, _, evalBatch_of hF hnx hnf hnc h2 _, by rw [hz]; rfl⟩
  · rintro ⟨ys, s1, h1, h2⟩
    obtain ⟨h1, h1'⟩ := nb_onRng.mp h1
    have hlen : OnOk ((List.range (NP / 4)).foldlM (nsgaFour v P A xs rank cd sh1 sh2) []) (fun ys => ∀ y ∈ ys, y.length = P.info.nx) := by
      refine onOk_foldlM ?_ _ _ (by simp)
      intro acc k hacc
      unfold nsgaFour
      refine onOk_bind (onOk_breed v P A rank cd sh1 (4 * k) hx) fun c hc => onOk_bind (onOk_breed v P A rank cd sh2 (4 * k) hx) fun d hd => onOk_pure ?_
      intro y hy
      simp only [List.mem_append, List.mem_cons, List.not_mem_nil, or_false] at hy
      rcases hy with hy | rfl | rfl | rfl | rfl
      · exact hacc y hy
      · exact hc.1
      · exact hc.2
      · exact hd.1
      · exact hd.2
    have h3 := hlen _ _ _ h1
    replace h2 : Run.bind _ _ _ = _ := h2
    obtain ⟨fs, s2, h4, h5⟩ := bind_ok_iff.mp h2
    rw [evalBatch_of hF hnx hnf hnc h3] at h4
    obtain ⟨h4, h4'⟩ := Prod.mk.inj h4
    cases h4
    obtain ⟨h5, h5'⟩ := Prod.mk.inj h5
    have h5 := Outcome.ok.inj h5
    refine ⟨ys, s1.e, h1, h3, ?_, ?_⟩
    · rw [← h5, hz]; rfl
    · rw [← h5', ← h4', h1']

/-- a loop keeps what its body keeps -/
theorem nb_genLoop {β : Type} {I : St K σ → Prop} {body : Nat → β → Run (St K σ) (β × Bool)} (hk : ∀ g b, Keeps I (body g b) (fun _ => True))
    (gens : Nat) : ∀ (fuel g : Nat) (b : β), Keeps I (genLoop body gens fuel g b) (fun _ => True) := by
  intro fuel
  induction fuel with
  | zero => intro g b; exact keeps_lift _
  | succ n ih =>
    intro g b
    rw [genLoop]
    split
    · refine keeps_bind (hk g b) fun r _ => ?_
      split
      · exact keeps_pure trivial
      · exact ih _ _
    · exact keeps_pure trivial

/-- C157 (batch evaluation). If the fitness is a function of the point and the batch evaluator computes this function for each point, then a run of
nsga2 with the batch evaluator that ends without an exception does exactly the same as a run without: same population, same random engine, same
evaluations in the same order; and the other way round. -/
theorem C157_batch [IsStrictOrderedRing K] (v : MoEnv K σ) (P : AProb K) (A : Nsga2 K) (b : Batch K) (F : List (Fl K) → List (Fl K)) (hF : BatchOf P b F)
    (hnx : 0 < P.info.nx) (hnobj : 0 < P.info.nobj) (fuel : Nat) (s s' : St K σ) (hi : Inv P.info s.pop) :
    nsga2Evolve v P { A with bfe := some b } fuel s = (.ok (), s') ↔ nsga2Evolve v P { A with bfe := none } fuel s = (.ok (), s') := by
  have hnf : 0 < P.info.nf := by unfold Info.nf; omega
  let I : St K σ → Prop := fun s1 => Inv P.info s1.pop ∧ s1.pop.id.length = s.pop.id.length
  have hrng : ∀ (s : St K σ) e, I s → I { s with e := e } := fun _ _ h => h
  have ins : ∀ (U : List (List (Fl K) × List (Fl K))) (best : List Nat) (u : Unit) (i : Nat), Keeps I (nsgaInsert v P U best u i) (fun _ => True) := by
    intro U best u i
    unfold nsgaInsert
    refine keeps_bind (keeps_lift _) fun k _ => keeps_bind (keeps_lift _) fun p _ => ?_
    intro s1 a s2 hI e
    have key := op_run (sq := v.sq) hnx hnobj hI.1 (.setXF i p.1 p.2)
    change wp (Pop.setXF v.sq P.info i p.1 p.2) _ _ _ at key
    unfold onPop at e
    unfold wp at key
    rcases hr : Pop.setXF v.sq P.info i p.1 p.2 s1.pop with ⟨o, q⟩
    rw [hr] at key e
    obtain ⟨e1, rfl⟩ := Prod.mk.inj e
    dsimp only at e1
    subst e1
    obtain ⟨k1, k2, -⟩ := key
    exact ⟨⟨k1, (congrArg List.length k2.2.1).trans hI.2⟩, trivial⟩
  have keval : ∀ x, Keeps I (eval P x : Run (St K σ) (List (Fl K))) (fun _ => True) := by
    intro x s1 a s2 hI e
    unfold eval at e
    rw [← (Prod.mk.inj e).2]
    split <;> exact ⟨hI, trivial⟩
  have kids : ∀ NP xs rank cd sh1 sh2, Keeps I (nsgaKids v P { A with bfe := none } NP xs rank cd sh1 sh2) (fun _ => True) := by
    intro NP xs rank cd sh1 sh2
    unfold nsgaKids
    refine keeps_foldlM (fun c i => ?_) _ _
    unfold nsgaEvalFour
    exact keeps_bind (keeps_onRng hrng _) fun _ _ => keeps_bind (keval _) fun _ _ => keeps_bind (keval _) fun _ _ => keeps_bind (keeps_onRng hrng _) fun _ _ =>
      keeps_bind (keval _) fun _ _ => keeps_bind (keval _) fun _ _ => keeps_pure trivial
  have gen : ∀ g c, Keeps I (nsgaGen v P { A with bfe := none } s.pop.id.length g c) (fun _ => True) := by
    intro g c
    unfold nsgaGen
    exact keeps_bind keeps_get fun _ _ => keeps_bind (keeps_onRng hrng _) fun _ _ => keeps_bind (keeps_onRng hrng _) fun _ _ =>
      keeps_bind (keeps_lift _) fun _ _ => keeps_bind (kids _ _ _ _ _ _) fun _ _ => keeps_bind (keeps_lift _) fun _ _ =>
      keeps_bind (keeps_foldlM (ins _ _) _ _) fun _ _ => keeps_pure trivial
  by_cases hnc : P.info.nc = 0
  swap
  · unfold nsga2Evolve
    have throws : ∀ (A' : Nsga2 K), (Run.get >>= fun s : St K σ =>
        if someBoundEqual P.lb P.ub then Run.throw .invalidArgument
        else if P.info.stochastic then Run.throw .invalidArgument
        else if P.info.nc ≠ 0 then Run.throw .invalidArgument
        else if P.info.nf < 2 then Run.throw .invalidArgument
        else if s.pop.id.length < 5 ∨ s.pop.id.length % 4 ≠ 0 then Run.throw .invalidArgument
        else do
          let _ ← genLoop (nsgaGen v P A' s.pop.id.length) A.gens fuel 1 (List.range s.pop.id.length, List.range s.pop.id.length)
          pure ()) s = (.throws .invalidArgument, s) := by
      intro A'
      show (if _ then _ else _ : Run (St K σ) Unit) s = _
      split
      · rfl
      split
      · rfl
      · rfl
    rw [throws, throws]
  have same : ∀ g c, SameOk I (nsgaGen v P { A with bfe := none } s.pop.id.length g c) (nsgaGen v P { A with bfe := some b } s.pop.id.length g c) := by
    intro g c
    unfold nsgaGen
    refine sameOk_bind (sameOk_refl _) keeps_get fun s1 h1 => sameOk_bind (sameOk_refl _) (keeps_onRng hrng _) fun _ _ =>
      sameOk_bind (sameOk_refl _) (keeps_onRng hrng _) fun _ _ => sameOk_bind (sameOk_refl _) (keeps_lift _) fun _ _ =>
      sameOk_bind ?_ (kids _ _ _ _ _ _) fun _ _ => sameOk_refl _
    intro s2 r s3 _
    exact nb_kids v A hF hnx hnf hnc h1.1.wf.dimX _ _ _ _ _ _ _ _
  have key : SameOk I (nsga2Evolve v P { A with bfe := none } fuel) (nsga2Evolve v P { A with bfe := some b } fuel) := by
    unfold nsga2Evolve
    refine sameOk_bind (sameOk_refl _) keeps_get fun s1 h1 => ?_
    rw [h1.2]
    split
    · exact sameOk_refl _
    split
    · exact sameOk_refl _
    split
    · exact sameOk_refl _
    split
    · exact sameOk_refl _
    split
    · exact sameOk_refl _
    · exact sameOk_bind (genLoop_same same gen _ _ _ _) (nb_genLoop gen _ _ _ _) fun _ _ => sameOk_refl _
  exact (key s () s' ⟨hi, rfl⟩).symm

/-! ## Examples -/

/-- The hypotheses hold for the example. -/
example (s' : St ℚ (List ℚ)) :
    nsga2Evolve moDemoEnv moDemo { moDemoAlg with bfe := some moBatch } 3 moDemoSt = (.ok (), s') ↔
    nsga2Evolve moDemoEnv moDemo { moDemoAlg with bfe := none } 3 moDemoSt = (.ok (), s') :=
  C157_batch moDemoEnv moDemo moDemoAlg moBatch _ moBatch_of (by decide) (by decide) 3 moDemoSt s' moDemo_inv

/-- and the run ends without an exception, evaluates eight points and changes the population -/
example : (nsga2Evolve moDemoEnv moDemo { moDemoAlg with bfe := some moBatch } 3 moDemoSt).1 = .ok () ∧
    (nsga2Evolve moDemoEnv moDemo { moDemoAlg with bfe := some moBatch } 3 moDemoSt).2.evs.length = 8 ∧
    (nsga2Evolve moDemoEnv moDemo { moDemoAlg with bfe := some moBatch } 3 moDemoSt).2.pop.x ≠ moDemoSt.pop.x := by
  decide +kernel

end Verif.Props
