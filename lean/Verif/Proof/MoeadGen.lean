import Verif.Model.MoeadGen
import Verif.Proof.Moead

/-!
# Helper lemmas for `Verif.Props.MoeadGen`
-/

set_option autoImplicit false

namespace Verif.Props

open Verif Run Prob Pop Alg Genetic MO

variable {K σ : Type}

/-- `R i` from one state to the next, for the `i` of a list -/
inductive Passes {ι α : Type} (R : ι → α → α → Prop) : List ι → α → α → Prop
  | refl (a : α) : Passes R [] a a
  | snoc {l : List ι} {a b c : α} {i : ι} : Passes R l a b → R i b c → Passes R (l ++ [i]) a c

section
variable [Field K] [LinearOrder K]

/-- What a generation does with a candidate: number, whether parents came from the whole population, point, objectives. -/
abbrev MgItem (K : Type) := Nat × Bool × List (Fl K) × List (Fl K)

/-- The insertion of an evaluated candidate: the ideal point is updated, then it replaces individuals as in `moead`. The pairs
are the population and the ideal point. -/
def MgPutStep (v : MoeadEnv K σ) (A : Moead K) (W : List (List (Fl K))) (neigh : List (List Nat)) (NP : Nat) (it : MgItem K)
    (a b : Pop.State K × List (Fl K)) : Prop :=
  b.1.id = a.1.id ∧ NewIdeal a.2 it.2.2.2 b.2 ∧ Inserted v A W b.2 it.2.2.1 it.2.2.2 (it.1 :: poolOf neigh NP it.1 it.2.1) a.1 b.1

/-- One generation, with the individuals in the order given: one candidate for each, all made of the population at the start
of the generation; all are evaluated, in this order; then all are inserted, in this order. The triples are the population,
the evaluations so far and the ideal point. -/
def MgGeneration (v : MoeadEnv K σ) (P : AProb K) (A : Moead K) (W : List (List (Fl K))) (neigh : List (List Nat)) (NP : Nat) (order : List Nat)
    (a b : Pop.State K × List (ECall K) × List (Fl K)) : Prop :=
  ∃ items : List (MgItem K), items.map (fun it => it.1) = order ∧
    (∀ it ∈ items, (it.2.1 = true → A.preserve = true) ∧ CandOf v P A a.1.x it.1 (poolOf neigh NP it.1 it.2.1) it.2.2.1) ∧
    b.2.1 = a.2.1 ++ items.map (fun it => (it.2.2.1, .ok it.2.2.2)) ∧
    Passes (MgPutStep v A W neigh NP) items (a.1, a.2.2) (b.1, b.2.2)

/-- A run that ended with an exception: only points with `B` were evaluated, and the exception comes from the user's code
(fitness function or batch evaluator) or from lack of memory. -/
def MgFailed (B : List (Fl K) → Prop) (P : AProb K) (bfe : Option (Batch K)) (s0 : St K σ) (e : Exn) (s : St K σ) : Prop :=
  FailedBy B P s0 e s ∨ EvsBy B s0 s ∧ ∃ b dvs, bfe = some b ∧ (b s.evs dvs = .error e ∨
    e = .invalidArgument ∧ ∃ fvs, b s.evs dvs = .ok fvs ∧ fvs.length ≠ dvs.length / P.info.nx * P.info.nf)

variable [IsStrictOrderedRing K] [FloorRing K]

theorem wpn_mgMakeAll {v : MoeadEnv K σ} {rep : K → Prop} (hg : v.g.Lawful rep) {P : AProb K} (hP : SaneBounds P.lb P.ub P.nix)
    (hr : Reps rep P.lb P.ub) (hdim : P.info.nx = P.lb.length) {A : Moead K} {Num : Prop} (hN : Num → MoeadNum v A P.lb P.ub)
    {neigh : List (List Nat)} {NP : Nat} (hn : NeighOk neigh NP) (h2 : 2 ≤ NP) (fuel : Nat) {s0 s : St K σ} {new : List (ECall K)}
    (ht : TrackedBy (Made Num P) P s0 new s) (hNP : s.pop.id.length = NP) (hx : ∀ y ∈ s.pop.x, Made Num P y) {sh : List Nat}
    (hsh : ∀ n ∈ sh, n < NP) {E : Exn → St K σ → Prop} :
    wpn (StuckDraws v.g NP fuel) (sh.foldlM (mgMake v P A neigh fuel) [])
      (fun items s' => items.map (fun it => it.1) = sh ∧ (∀ it ∈ items, Made Num P it.2.2 ∧ (it.2.1 = true → A.preserve = true) ∧
        CandOf v P A s.pop.x it.1 (poolOf neigh NP it.1 it.2.1) it.2.2) ∧ s'.pop = s.pop ∧ TrackedBy (Made Num P) P s0 new s') E s := by
  refine wpn_foldlM (fun p (items : List (Nat × Bool × List (Fl K))) s' => items.map (fun it => it.1) = p ∧
    (∀ it ∈ items, Made Num P it.2.2 ∧ (it.2.1 = true → A.preserve = true) ∧
      CandOf v P A s.pop.x it.1 (poolOf neigh NP it.1 it.2.1) it.2.2) ∧ s'.pop = s.pop ∧ TrackedBy (Made Num P) P s0 new s') sh [] s
    ⟨rfl, by simp, rfl, ht⟩ ?_
  rintro p n q items s1 rfl ⟨h1, h3, h4, h5⟩
  unfold mgMake
  rw [wpn_bind, wpn_onRng]
  refine wpn_of_wp (Gen.wp_draw01 hg ?_)
  intro r e1 _ _
  dsimp only
  generalize hw : (!(Fl.lt (Fl.fin r) A.realb || !A.preserve)) = whole
  have hwp : whole = true → A.preserve = true := by
    rintro rfl
    cases hpres : A.preserve <;> simp_all
  rw [wpn_bind, wpn_get', wpn_bind, wpn_onRng]
  dsimp only
  refine (wpn_moeadCandidate (xs := s1.pop.x) hg hP hr hdim hN (by rw [h4, ht.inv.wf.xs]; exact hNP) (by rw [h4]; exact hx) hn (hsh n (by simp))
    h2 whole fuel e1).mono ?_ (fun _ _ h => h)
  rintro x e2 ⟨hmx, hcand⟩
  rw [h4] at hcand
  rw [wpn_pure]
  refine ⟨by simp [h1], ?_, h4, tracked_rng (tracked_rng h5 e1) e2⟩
  intro it hit
  rcases List.mem_append.mp hit with hit | hit
  · exact h3 it hit
  · rw [List.mem_singleton.mp hit]
    exact ⟨hmx, hwp, hcand⟩

omit [FloorRing K] in
theorem wp_mgEval {B : List (Fl K) → Prop} {P : AProb K} {bfe : Option (Batch K)} (hok : ∀ b, bfe = some b → BatchOk P b)
    (hnx : 0 < P.info.nx) (hnobj : 0 < P.info.nobj) (hnc : P.info.nc = 0) {s0 s : St K σ}
    {new : List (ECall K)} (ht : TrackedBy B P s0 new s) {xs : List (List (Fl K))} (hx : ∀ x ∈ xs, x.length = P.info.nx)
    (hB : ∀ x ∈ xs, B x) {Q : List (List (Fl K)) → St K σ → Prop} {E : Exn → St K σ → Prop}
    (hq : ∀ fs s', fs.length = xs.length → (∀ f ∈ fs, f.length = P.info.nf) → s'.pop = s.pop →
      TrackedBy B P s0 (new ++ asCalls (xs.zip fs)) s' → Q fs s')
    (he : ∀ e s', MgFailed B P bfe s0 e s' → E e s') : wp (mgEval P bfe xs) Q E s := by
  cases hb : bfe with
  | some b =>
    unfold mgEval
    dsimp only
    exact wp_evalBatch' (hok b hb) hnx hnobj hnc ht hx hB (fun fs s' h1 h2 h3 _ h4 => hq fs s' h1 h2 h3 h4) fun e h =>
      he e s (Or.inr ⟨evsBy_of_tracked ht, b, xs.flatten, hb, h⟩)
  | none =>
    unfold mgEval
    dsimp only
    refine (wp_foldlM (E := E) (fun p (fs : List (List (Fl K))) s' => fs.length = p.length ∧ (∀ f ∈ fs, f.length = P.info.nf) ∧ s'.pop = s.pop ∧
      TrackedBy B P s0 (new ++ asCalls (p.zip fs)) s') xs [] s ⟨rfl, by simp, rfl, by simpa [asCalls] using ht⟩ ?_).mono ?_ (fun _ _ h => h)
    · rintro p x q fs s1 rfl ⟨h1, h2, h3, h4⟩
      unfold mgEvalOne
      rw [wp_bind]
      refine wp_eval_by (hx x (by simp)) h4 (hB x (by simp)) ?_ (fun e s' h => he e s' (Or.inl h))
      intro f s2 hf hpop _ ht2
      rw [wp_pure]
      refine ⟨by simp [h1], ?_, hpop.trans h3, ?_⟩
      · intro g hg
        rcases List.mem_append.mp hg with hg | hg
        · exact h2 g hg
        · rw [List.mem_singleton.mp hg]; exact hf
      · rw [List.zip_append h1.symm]
        simpa [asCalls] using ht2
    · rintro fs s1 ⟨h1, h2, h3, h4⟩
      exact hq fs s1 h1 h2 h3 h4

theorem wp_mgPutAll {Num : Prop} {v : MoeadEnv K σ} (hd : v.d.Lawful) {P : AProb K} (hnx : 0 < P.info.nx) (hobj : 0 < P.info.nobj) {A : Moead K}
    (hm : DecName A.decomp) {W : List (List (Fl K))} {neigh : List (List Nat)} {NP : Nat} (hW : W.length = NP)
    (hWd : ∀ w ∈ W, w.length = P.info.nf) (hn : NeighOk neigh NP) {s0 s : St K σ} {new : List (ECall K)}
    {z : List (Fl K)} (hz : z.length = P.info.nf) (ht : TrackedBy (Made Num P) P s0 new s) (hNP : s.pop.id.length = NP)
    (hx : ∀ y ∈ s.pop.x, Made Num P y) {items : List (Nat × Bool × List (Fl K))} {fs : List (List (Fl K))} (h32 : items.length < 2 ^ 32)
    (hlen : fs.length = items.length) (hf : ∀ f ∈ fs, f.length = P.info.nf) (hi : ∀ it ∈ items, it.1 < NP ∧ Made Num P it.2.2)
    {E : Exn → St K σ → Prop} (he : ∀ e s', FailedBy (Made Num P) P s0 e s' → E e s') :
    wp (mgPutAll v P A W neigh NP items fs z) (fun z' s' => z'.length = P.info.nf ∧ TrackedBy (Made Num P) P s0 new s' ∧
      (∀ y ∈ s'.pop.x, Made Num P y) ∧ Passes (MgPutStep v A W neigh NP) ((items.zip fs).map (fun q => (q.1.1, q.1.2.1, q.1.2.2, q.2))) (s.pop, z) (s'.pop, z')) E s := by
  unfold mgPutAll
  rw [if_neg (by omega)]
  refine (wp_range (E := E) (fun t (z' : List (Fl K)) s' => z'.length = P.info.nf ∧ TrackedBy (Made Num P) P s0 new s' ∧
    (∀ y ∈ s'.pop.x, Made Num P y) ∧ Passes (MgPutStep v A W neigh NP) (((items.zip fs).take t).map (fun q => (q.1.1, q.1.2.1, q.1.2.2, q.2))) (s.pop, z) (s'.pop, z'))
    _ z s ⟨hz, ht, hx, by simpa using .refl _⟩ ?_).mono ?_ (fun _ _ h => h)
  · rintro i z1 s1 hil ⟨h1, h2, h3, h4⟩
    unfold mgPut
    have hif : i < fs.length := by omega
    rw [wp_bind, wp_lift_get hil, wp_bind, wp_lift_get hif, wp_bind]
    obtain ⟨hlt, hmx⟩ := hi _ (List.getElem_mem hil)
    have hfi := hf _ (List.getElem_mem hif)
    obtain ⟨z', hz', hnew⟩ := moeadIdeal_spec hfi h1
    rw [hz', wp_lift_ok, wp_bind]
    have ha : InsArgs P A W z' items[i].2.2 fs[i] NP := ⟨hnx, hobj, hm, hW, hWd, hnew.1.trans h1, hmx.1, hfi⟩
    refine wp_moeadInsert hd ha hn hlt _ h2 (by rw [h2.id, ← ht.id]; exact hNP) ?_ he
    intro s2 ht2 hins
    rw [wp_pure]
    refine ⟨hnew.1.trans h1, ht2, made_inserted hins hmx h3, ?_⟩
    have hzl : i < (items.zip fs).length := by rw [List.length_zip]; omega
    rw [List.take_succ_eq_append_getElem hzl, List.map_append, List.map_singleton, List.getElem_zip]
    exact h4.snoc ⟨by rw [ht2.id, h2.id], hnew, hins⟩
  · rintro z1 s1 ⟨h1, h2, h3, h4⟩
    refine ⟨h1, h2, h3, ?_⟩
    rwa [List.take_of_length_le (by rw [List.length_zip]; omega)] at h4

theorem wpn_mgGen {v : MoeadEnv K σ} {rep : K → Prop} (hg : v.g.Lawful rep) (hd : v.d.Lawful) {P : AProb K} (hP : SaneBounds P.lb P.ub P.nix)
    (hr : Reps rep P.lb P.ub) (hdim : P.info.nx = P.lb.length) (hobj : 0 < P.info.nobj) (hnc : P.info.nc = 0) {A : Moead K} (hm : DecName A.decomp)
    {bfe : Option (Batch K)} (hok : ∀ b, bfe = some b → BatchOk P b) {Num : Prop}
    (hN : Num → MoeadNum v A P.lb P.ub) {W : List (List (Fl K))} {neigh : List (List Nat)} {NP : Nat} (hW : W.length = NP)
    (hWd : ∀ w ∈ W, w.length = P.info.nf) (hn : NeighOk neigh NP) (h2 : 2 ≤ NP) (h32 : NP < 2 ^ 32) (fuel : Nat) {s0 s : St K σ} {new : List (ECall K)}
    {z : List (Fl K)} (hz : z.length = P.info.nf) (ht : TrackedBy (Made Num P) P s0 new s) (hNP : s.pop.id.length = NP) (hx : ∀ y ∈ s.pop.x, Made Num P y)
    {sh : List Nat} (hsh : sh.Perm (List.range NP)) (g : Nat) :
    wpn (StuckDraws v.g NP fuel) (mgGen v P A bfe W neigh NP fuel g (sh, z))
      (fun b s' => b.2 = false ∧ b.1.1.Perm (List.range NP) ∧ b.1.2.length = P.info.nf ∧ (∃ new', TrackedBy (Made Num P) P s0 new' s') ∧
        (∀ y ∈ s'.pop.x, Made Num P y) ∧ MgGeneration v P A W neigh NP b.1.1 (s.pop, s.evs, z) (s'.pop, s'.evs, b.1.2)) (MgFailed (Made Num P) P bfe s0) s := by
  unfold mgGen
  rw [wpn_bind, wpn_onRng]
  refine wpn_of_wp (wp_shuffle_perm hd ?_)
  intro l e hl
  have hl' := hl.trans hsh
  have hnx : 0 < P.info.nx := by rw [hdim]; exact List.length_pos_iff.mpr hP.nonempty
  dsimp only
  rw [wpn_bind]
  have hlt : ∀ n ∈ l, n < NP := fun n h => by simpa using hl'.mem_iff.mp h
  refine (wpn_mgMakeAll hg hP hr hdim hN hn h2 fuel (tracked_rng ht e) hNP hx (sh := l) hlt).mono ?_ (fun _ _ h => h)
  rintro items s1 ⟨i1, i2, i3, i4⟩
  dsimp only at i2 i3
  refine wpn_of_wp ?_
  rw [wp_bind]
  have hil : items.length = l.length := by rw [← i1, List.length_map]
  refine wp_mgEval hok hnx hobj hnc i4 ?_ ?_ ?_ (fun _ _ h => h)
  · intro x hx
    obtain ⟨it, hit, rfl⟩ := List.mem_map.mp hx
    exact (i2 it hit).1.1
  · intro x hx
    obtain ⟨it, hit, rfl⟩ := List.mem_map.mp hx
    exact (i2 it hit).1
  intro fs s2 f1 f2 f3 f4
  rw [wp_bind]
  rw [List.length_map] at f1
  refine (wp_mgPutAll hd hnx hobj hm hW hWd hn hz f4 (by rw [f3, i3]; exact hNP) (by rw [f3, i3]; exact hx) (by
    rw [hil, hl'.length_eq, List.length_range]; exact h32) f1 f2 (fun it hit => ⟨hlt _ (by rw [← i1]; exact List.mem_map_of_mem hit), (i2 it hit).1⟩)
    (E := MgFailed (Made Num P) P bfe s0) (fun _ _ h => Or.inl h)).mono ?_ (fun _ _ h => h)
  rintro z1 s3 ⟨p1, p2, p3, p4⟩
  rw [wp_pure]
  refine ⟨rfl, hl', p1, ⟨_, p2⟩, p3, (items.zip fs).map (fun q => (q.1.1, q.1.2.1, q.1.2.2, q.2)), ?_, ?_, ?_, ?_⟩
  · rw [List.map_map, ← i1]
    calc _ = ((items.zip fs).map Prod.fst).map (fun it => it.1) := by rw [List.map_map]; rfl
      _ = _ := by rw [List.map_fst_zip (by omega)]
  · intro it hit
    obtain ⟨q, hq, rfl⟩ := List.mem_map.mp hit
    exact (i2 q.1 (List.of_mem_zip hq).1).2
  · dsimp only
    rw [p2.evs, ht.evs, List.append_assoc]
    congr 2
    rw [asCalls, List.map_map, List.zip_map_left, List.map_map]
    rfl
  · rw [f3, i3] at p4
    exact p4

end

end Verif.Props
