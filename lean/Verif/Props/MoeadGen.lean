import Verif.Proof.MoeadGen
import Verif.Props.Moead

/-!
# C100: `moead_gen`
-/

set_option autoImplicit false

namespace Verif.Props

open Verif Run Prob Pop Alg Genetic MO Spec

variable {K σ : Type} [Field K] [LinearOrder K]

/-- What a run does. `Num` is what the arithmetic has to satisfy so that all points are inside the bounds. -/
def MgDone [FloorRing K] (Num : Prop) (v : MoeadEnv K σ) (P : AProb K) (A : Moead K) (s s' : St K σ) : Prop :=
  (∃ new, TrackedBy (Made Num P) P s new s') ∧ (∀ y ∈ s'.pop.x, Made Num P y) ∧
  ∃ (W : List (List (Fl K))) (neigh : List (List Nat)) (z0 z1 : List (Fl K)) (orders : List (List Nat)),
    W.length = s.pop.id.length ∧ (∀ w ∈ W, OnSimplex P.info.nf w) ∧
    neigh.length = s.pop.id.length ∧ (∀ (i : Nat) (ns : List Nat), neigh[i]? = some ns →
      IsNearest (fun a b => opDist v.op v.sq (W.getD a []) (W.getD b [])) s.pop.id.length A.neighbours i ns) ∧
    IdealOf s.pop.f z0 ∧
    orders.length = A.gens ∧ (∀ o ∈ orders, o.Perm (List.range s.pop.id.length)) ∧
    Passes (MgGeneration v P A W neigh s.pop.id.length) orders (s.pop, s.evs, z0) (s'.pop, s'.evs, z1)

/-- C100. `moead_gen::evolve`: weights, neighbourhoods and ideal point as in `moead`; in each generation one candidate is
made for each individual, in some order, all of them from the population at the start of the generation; then all candidates
are evaluated, each exactly once and in this order, by the batch evaluator if there is one; then they are inserted one by
one, in this order: the ideal point is updated by the candidate, and the candidate replaces individuals of the neighbourhood
(with diversity preservation possibly of the whole population): only such that are worse for their own weight and the
updated ideal point, all such unless diversity preservation stops it, and then at most max(limit, 2). Nothing else changes,
IDs stay, and candidates are inside the bounds if the arithmetic does not leave an interval. The run can only fail by the
user's fitness function, the batch evaluator, lack of memory, or when there are no weights. It ends unless the random engine
always delivers the same parent. -/
theorem C100_evolve [IsStrictOrderedRing K] [FloorRing K] (v : MoeadEnv K σ) (rep : K → Prop) (hg : v.g.Lawful rep) (hd : v.d.Lawful)
    (hsrt : ValidSort v.srt) (hsF : ValidSort v.srtF) (P : AProb K) (hP : SaneBounds P.lb P.ub P.nix) (hr : Reps rep P.lb P.ub)
    (hdim : P.info.nx = P.lb.length) (heq : someBoundEqual P.lb P.ub = false) (hst : P.info.stochastic = false) (hnc : P.info.nc = 0)
    (hnf : 2 ≤ P.info.nf) (A : Moead K) (hgens0 : 0 < A.gens) (hgens : A.gens + 1 < 2 ^ 32)
    (hw : A.weightGen = "random" ∨ A.weightGen = "grid" ∨ A.weightGen = "low discrepancy") (hm : DecName A.decomp)
    (hn2 : 2 ≤ A.neighbours) (hn31 : A.neighbours < 2 ^ 31) (bfe : Option (Batch K)) (hok : ∀ b, bfe = some b → BatchOk P b)
    (s : St K σ) (hs : Inv P.info s.pop) (hNP : A.neighbours ≤ s.pop.id.length - 1)
    (h32 : s.pop.id.length < 2 ^ 32) (fuel : Nat) (hfuel : A.gens < fuel) :
    wpn (StuckDraws v.g s.pop.id.length fuel) (mgEvolve v P A bfe fuel) (fun _ s' => MgDone (MoeadFinite v P A s) v P A s s')
      (fun e s' => MgFailed (Made (MoeadFinite v P A s) P) P bfe s e s' ∨ NoWeights P A s.pop.id.length ∧ s'.pop = s.pop ∧ s'.evs = s.evs) s := by
  generalize hNum : MoeadFinite v P A s = Num
  have hN : Num → MoeadNum v A P.lb P.ub := fun n => (hNum ▸ n : MoeadFinite v P A s).1
  have hB : ∀ x ∈ s.pop.x, Made Num P x := fun x hx => ⟨hs.wf.dimX x hx, fun n => (hNum ▸ n : MoeadFinite v P A s).2 x hx⟩
  have hobj : 0 < P.info.nobj := by unfold Info.nf at hnf; unfold Info.nc at hnc; omega
  unfold mgEvolve
  rw [wpn_bind, wpn_get', if_neg (by simp [heq]), if_neg (by omega), if_neg (by omega), if_neg (by simp [hnc]), if_neg (by simp [hst]),
    if_neg (by omega), if_neg (by omega), wpn_bind, wpn_onRng]
  refine wpn_of_wp (wp_moeadWeights hg hsF hnf (by omega) hw ?_ ?_)
  · intro W e hW hWs
    have hWd : ∀ w ∈ W, w.length = P.info.nf := by
      intro w hw
      obtain ⟨g, rfl, hl, -⟩ := hWs w hw
      simpa using hl
    rw [wpn_bind]
    obtain ⟨neigh, hk, hkl, hkn⟩ := C51_knn_any_arithmetic v.op v.sq v.srt hsrt W A.neighbours P.info.nf hWd hn31
    rw [hk, wpn_lift_ok, wpn_bind]
    rw [hW] at hkl hkn
    have hfne : s.pop.f ≠ [] := by
      intro h
      have := hs.wf.fs
      rw [h] at this
      simp at this
      omega
    have hsame : SameLength s.pop.f := fun p hp q hq => (hs.wf.dimF p hp).trans (hs.wf.dimF q hq).symm
    obtain ⟨z0, hz0, hz1⟩ := (C07_ideal s.pop.f hfne).2 hsame
    rw [hz0, wpn_lift_ok, wpn_bind]
    obtain ⟨f0, hf0⟩ := List.exists_mem_of_ne_nil _ hfne
    have hzl : z0.length = P.info.nf := (hz1.1 f0 hf0).trans (hs.wf.dimF f0 hf0)
    have hnok : NeighOk neigh s.pop.id.length := by
      refine ⟨hkl, fun ns hns => ?_⟩
      obtain ⟨i, hi⟩ := List.getElem?_of_mem hns
      have := hkn i ns hi
      exact ⟨by rw [this.length]; omega, this.nodup, fun j hj => (this.valid j hj).1⟩
    have key := wpn_genLoop (N := StuckDraws v.g s.pop.id.length fuel) (body := mgGen v P A bfe W neigh s.pop.id.length fuel) hgens
      (E := MgFailed (Made Num P) P bfe s)
      (fun k (b : List Nat × List (Fl K)) s' => b.1.Perm (List.range s.pop.id.length) ∧ b.2.length = P.info.nf ∧
        (∃ new, TrackedBy (Made Num P) P s new s') ∧ (∀ y ∈ s'.pop.x, Made Num P y) ∧
        ∃ orders : List (List Nat), orders.length = k ∧ (∀ o ∈ orders, o.Perm (List.range s.pop.id.length)) ∧
          Passes (MgGeneration v P A W neigh s.pop.id.length) orders (s.pop, s.evs, z0) (s'.pop, s'.evs, b.2)) ?_ fuel 0
      (List.range s.pop.id.length, z0) { s with e := e } (by omega) (by omega) ?_
    · refine key.mono ?_ (fun _ _ h => Or.inl h)
      rintro b s' ⟨-, -, h3, h4, orders, h5, h6, h7⟩
      rw [wpn_pure]
      exact ⟨h3, h4, W, neigh, z0, b.2, orders, hW, hWs, hkl, hkn, hz1, h5, h6, h7⟩
    · rintro k ⟨sh, z⟩ s1 hk ⟨h1, h2, ⟨new, h3⟩, h4, orders, h5, h6, h7⟩
      refine (wpn_mgGen hg hd hP hr hdim hobj hnc hm hok hN hW hWd hnok (by omega) h32 fuel h2 h3 (by rw [h3.id]) h4 h1 (k + 1)).mono ?_ (fun _ _ h => h)
      rintro b s2 ⟨g0, g1, g2, g3, g4, g5⟩
      refine ⟨g0, g1, g2, g3, g4, orders ++ [b.1.1], by simp [h5], ?_, h7.snoc g5⟩
      intro o ho
      rcases List.mem_append.mp ho with ho | ho
      · exact h6 o ho
      · rw [List.mem_singleton.mp ho]; exact g1
    · exact ⟨List.Perm.refl _, hzl, ⟨[], tracked_rng (tracked_refl hs) e⟩, hB, [], rfl, by simp, .refl _⟩
  · intro x e hno
    exact Or.inr ⟨hno, rfl, rfl⟩

theorem passes_append {ι α : Type} {R : ι → α → α → Prop} {l l' : List ι} {a b c : α} (h : Passes R l a b) (h' : Passes R l' b c) :
    Passes R (l ++ l') a c := by
  induction h' with
  | refl _ => simpa using h
  | snoc _ hr ih => rw [← List.append_assoc]; exact (ih h).snoc hr

theorem passes_map {ι ι' α α' : Type} {R : ι → α → α → Prop} {R' : ι' → α' → α' → Prop} (g : ι → ι') (p : α → α')
    (hR : ∀ i a b, R i a b → R' (g i) (p a) (p b)) {l : List ι} {a b : α} (h : Passes R l a b) : Passes R' (l.map g) (p a) (p b) := by
  induction h with
  | refl _ => exact .refl _
  | snoc _ hr ih => rw [List.map_append, List.map_singleton]; exact ih.snoc (hR _ _ _ hr)

/-- A point updated by others is the minimum where there is no NaN. -/
theorem mins_spec {fs : List (List (Fl K))} {z0 z1 : List (Fl K)} (h : Passes (fun f a b => NewIdeal a f b) fs z0 z1) :
    z1.length = z0.length ∧ (∀ f ∈ fs, f.length = z0.length) ∧
    ∀ j : Nat, z0[j]? ≠ some Fl.nan → (∀ f ∈ fs, f[j]? ≠ some Fl.nan) → ∀ m : Fl K, z1[j]? = some m →
      (z0[j]? = some m ∨ ∃ f ∈ fs, f[j]? = some m) ∧ (∀ x, z0[j]? = some x → m ≤ x) ∧ ∀ f ∈ fs, ∀ x, f[j]? = some x → m ≤ x := by
  induction h with
  | refl a => exact ⟨rfl, by simp, fun j _ _ m hm => ⟨Or.inl hm, fun x hx => by rw [hm] at hx; cases hx; exact le_rfl, by simp⟩⟩
  | @snoc fs a b c f _ hstep ih =>
    obtain ⟨h3, h4, h5⟩ := ih
    obtain ⟨z1, z2, z3⟩ := hstep
    refine ⟨z1.trans h3, ?_, ?_⟩
    · intro q hq
      rcases List.mem_append.mp hq with hq | hq
      · exact h4 q hq
      · rw [List.mem_singleton.mp hq]; exact z2.trans h3
    · intro j hz hq m hm
      have hj := (List.getElem?_eq_some_iff.mp hm).1
      have hjb : j < b.length := by omega
      have hjf : j < f.length := by omega
      have hb := List.getElem?_eq_getElem hjb
      have hf := List.getElem?_eq_getElem hjf
      obtain ⟨i1, i2, i3⟩ := h5 j hz (fun q hq' => hq q (by simp [hq'])) _ hb
      have e := z3 j _ _ hb hf
      rw [hm] at e
      have hfn : f[j] ≠ .nan := fun h => hq f (by simp) (by rw [hf, h])
      have hbn : b[j] ≠ .nan := by
        intro h
        rcases i1 with i1 | ⟨q, hq1, hq2⟩
        · exact hz (by rw [i1, h])
        · exact hq q (by simp [hq1]) (by rw [hq2, h])
      generalize b[j] = zb at *
      generalize f[j] = fj at *
      have em : m = if Fl.lt zb fj then zb else fj := by simpa using e
      have hmz : m ≤ zb := by
        rw [em]; split
        · exact le_rfl
        · rename_i hlt
          rw [Bool.not_eq_true, ← Bool.not_eq_true, Fl.lt_iff hbn hfn] at hlt
          exact not_lt.mp hlt
      have hmf : m ≤ fj := by
        rw [em]; split
        · rename_i hlt
          exact le_of_lt ((Fl.lt_iff hbn hfn).mp hlt)
        · exact le_rfl
      refine ⟨?_, fun y hy => hmz.trans (i2 y hy), fun q hq' y hy => ?_⟩
      · rw [em]; split
        · rcases i1 with i1 | ⟨q, hq1, hq2⟩
          · exact Or.inl i1
          · exact Or.inr ⟨q, by simp [hq1], hq2⟩
        · exact Or.inr ⟨f, by simp, hf⟩
      · rcases List.mem_append.mp hq' with hq' | hq'
        · exact hmz.trans (i3 q hq' y hy)
        · rw [List.mem_singleton.mp hq', hf] at hy
          cases hy
          exact hmf

/-- C100 (ideal point). After any number of generations the ideal point is the component-wise minimum of the initial one and
all objectives evaluated so far, for each component in which none of these is NaN; there was one evaluation for each
individual in each generation. -/
theorem C100_ideal (v : MoeadEnv K σ) (P : AProb K) (A : Moead K) (W : List (List (Fl K))) (neigh : List (List Nat)) (NP : Nat) (orders : List (List Nat))
    (p0 p1 : Pop.State K) (evs0 evs1 : List (ECall K)) (z0 z1 : List (Fl K))
    (h : Passes (MgGeneration v P A W neigh NP) orders (p0, evs0, z0) (p1, evs1, z1)) :
    ∃ new : List (List (Fl K) × List (Fl K)), new.length = orders.flatten.length ∧ evs1 = evs0 ++ new.map (fun q => (q.1, Except.ok q.2)) ∧
      z1.length = z0.length ∧ (∀ q ∈ new, q.2.length = z0.length) ∧
      ∀ j : Nat, z0[j]? ≠ some Fl.nan → (∀ q ∈ new, q.2[j]? ≠ some Fl.nan) → ∀ m : Fl K, z1[j]? = some m →
        (z0[j]? = some m ∨ ∃ q ∈ new, q.2[j]? = some m) ∧ (∀ x, z0[j]? = some x → m ≤ x) ∧ ∀ q ∈ new, ∀ x, q.2[j]? = some x → m ≤ x := by
  have key : ∀ (l : List (List Nat)) (a b : Pop.State K × List (ECall K) × List (Fl K)), Passes (MgGeneration v P A W neigh NP) l a b →
      ∃ new : List (List (Fl K) × List (Fl K)), new.length = l.flatten.length ∧ b.2.1 = a.2.1 ++ new.map (fun q => (q.1, Except.ok q.2)) ∧
        Passes (fun f a b => NewIdeal a f b) (new.map (fun q => q.2)) a.2.2 b.2.2 := by
    intro l a b h
    induction h with
    | refl a => exact ⟨[], by simp, by simp, .refl _⟩
    | @snoc l a b c o _ hstep ih =>
      obtain ⟨new, h1, h2, h3⟩ := ih
      obtain ⟨items, g1, -, g2, g3⟩ := hstep
      refine ⟨new ++ items.map (fun it => it.2.2), by simp [h1, ← g1], ?_, ?_⟩
      · rw [g2, h2]; simp [Function.comp_def]
      · rw [List.map_append, List.map_map]
        exact passes_append h3 (passes_map _ (fun q : Pop.State K × List (Fl K) => q.2) (fun it a b hs => hs.2.1) g3)
  obtain ⟨new, h1, h2, h3⟩ := key _ _ _ h
  obtain ⟨g1, g2, g3⟩ := mins_spec h3
  refine ⟨new, h1, h2, g1, fun q hq => g2 _ (List.mem_map_of_mem hq), fun j hz hq m hm => ?_⟩
  obtain ⟨k1, k2, k3⟩ := g3 j hz (fun f hf => by obtain ⟨q, hq', rfl⟩ := List.mem_map.mp hf; exact hq q hq') m hm
  refine ⟨k1.imp_right ?_, k2, fun q hq => k3 _ (List.mem_map_of_mem hq)⟩
  rintro ⟨f, hf, hm'⟩
  obtain ⟨q, hq', rfl⟩ := List.mem_map.mp hf
  exact ⟨q, hq', hm'⟩

/-- C100 (weighted sums). With the decomposition method "weighted" the decomposed value of the individual at position `i` for
its weight never grows. -/
theorem C100_weighted (v : MoeadEnv K σ) (P : AProb K) (A : Moead K) (hm : A.decomp = "weighted") (W : List (List (Fl K))) (neigh : List (List Nat)) (NP : Nat)
    (orders : List (List Nat)) (p0 p1 : Pop.State K) (evs0 evs1 : List (ECall K)) (z0 z1 : List (Fl K))
    (h : Passes (MgGeneration v P A W neigh NP) orders (p0, evs0, z0) (p1, evs1, z1)) (i : Nat) (w f0 : List (Fl K)) (a : Fl K) (hw : W[i]? = some w)
    (hf0 : p0.f[i]? = some f0) (ha : DecIs v A z0 w f0 a) :
    ∃ (f1 : List (Fl K)) (b : Fl K), p1.f[i]? = some f1 ∧ DecIs v A z1 w f1 b ∧ (b = a ∧ f1 = f0 ∨ Fl.lt b a = true) := by
  have swap : ∀ {z z' f : List (Fl K)} {a : Fl K}, z'.length = z.length → DecIs v A z w f a → DecIs v A z' w f a := by
    intro z z' f a hl hd
    unfold DecIs Dec.decomposeObjectives at *
    rw [hm] at *
    rwa [hl]
  let T : Pop.State K × List (Fl K) → Prop := fun q =>
    ∃ (f1 : List (Fl K)) (b : Fl K), q.1.f[i]? = some f1 ∧ DecIs v A q.2 w f1 b ∧ (b = a ∧ f1 = f0 ∨ Fl.lt b a = true)
  have put : ∀ (items : List (MgItem K)) (q q' : Pop.State K × List (Fl K)), Passes (MgPutStep v A W neigh NP) items q q' → T q → T q' := by
    intro items q q' h hT
    induction h with
    | refl _ => exact hT
    | @snoc l s b c it _ hstep ih =>
      obtain ⟨f1, b1, e1, e2, e3⟩ := ih hT
      obtain ⟨-, hz, ⟨ps, hr, -, -⟩⟩ := hstep
      by_cases hi : i ∈ ps
      · obtain ⟨w', f', a', b', k1, k2, k3, k4, k5⟩ := hr.better i hi
        rw [hw] at k1; cases k1
        rw [e1] at k2; cases k2
        have := swap hz.1 e2
        rw [DecIs] at this k3
        rw [this] at k3
        cases k3
        refine ⟨_, b', (hr.new i hi).2, k4, Or.inr ?_⟩
        rcases e3 with ⟨rfl, -⟩ | e3
        · exact k5
        · clear this
          cases b' <;> cases b1 <;> cases a <;> simp_all [Fl.lt]
          exact k5.trans e3
      · exact ⟨f1, b1, by rw [(hr.old i hi).2]; exact e1, swap hz.1 e2, e3⟩
  suffices ∀ (l : List (List Nat)) (s s' : Pop.State K × List (ECall K) × List (Fl K)), Passes (MgGeneration v P A W neigh NP) l s s' →
      T (s.1, s.2.2) → T (s'.1, s'.2.2) from this orders _ _ h ⟨f0, a, hf0, ha, Or.inl ⟨rfl, rfl⟩⟩
  intro l s s' h hT
  induction h with
  | refl _ => exact hT
  | snoc _ hstep ih =>
    obtain ⟨items, -, -, -, g3⟩ := hstep
    exact put _ _ _ g3 (ih hT)

/-- C100 (refusals): a bound equal to the other one, an empty population, fewer than two objectives, constraints, a stochastic
problem, too few individuals for the neighbourhoods. Nothing changes. -/
theorem C100_throws [FloorRing K] (v : MoeadEnv K σ) (P : AProb K) (A : Moead K) (bfe : Option (Batch K)) (fuel : Nat) (s : St K σ)
    (h : (∃ (i : Nat) (a : K), P.lb[i]? = some (.fin a) ∧ P.ub[i]? = some (.fin a)) ∨ s.pop.id.length = 0 ∨ P.info.nf < 2 ∨ P.info.nc ≠ 0 ∨
      P.info.stochastic = true ∨ s.pop.id.length < A.neighbours + 1) :
    mgEvolve v P A bfe fuel s = (.throws .invalidArgument, s) := by
  unfold mgEvolve
  show Run.bind Run.get _ s = _
  simp only [Run.bind, Run.get]
  split
  · rfl
  rename_i h1
  split
  · rfl
  split
  · rfl
  split
  · rfl
  split
  · rfl
  split
  · rfl
  · exfalso
    rename_i h2 h3 h4 h5 h6
    rcases h with ⟨i, a, hl, hu⟩ | h | h | h | h | h
    · apply h1
      unfold someBoundEqual
      rw [List.any_eq_true]
      exact ⟨(.fin a, .fin a), List.mem_of_getElem? (List.getElem?_zip_eq_some.mpr ⟨hl, hu⟩), by simp [Fl.eq]⟩
    · exact h2 h
    · exact h3 h
    · exact h4 h
    · exact h5 h
    · omega

/-- C100 (nothing to do). With no generations asked for and none of the refusals, nothing changes. -/
theorem C100_no_generations [FloorRing K] (v : MoeadEnv K σ) (P : AProb K) (A : Moead K) (hA : A.gens = 0) (bfe : Option (Batch K)) (fuel : Nat)
    (s : St K σ) (heq : someBoundEqual P.lb P.ub = false) (hst : P.info.stochastic = false) (hnc : P.info.nc = 0)
    (hnf : 2 ≤ P.info.nf) (hN0 : 0 < s.pop.id.length) (hNP : A.neighbours ≤ s.pop.id.length - 1) :
    mgEvolve v P A bfe fuel s = (.ok (), s) := by
  unfold mgEvolve
  show Run.bind Run.get _ s = _
  simp only [Run.bind, Run.get]
  rw [if_neg (by simp [heq]), if_neg (by omega), if_neg (by omega), if_neg (by simp [hnc]), if_neg (by simp [hst]),
    if_neg (by omega), if_pos hA]
  rfl

/-- C100 (constructor). The parameters are accepted exactly when the names are known, no number is out of range and the
neighbourhood has at least two members; NaN passes for the numbers. -/
theorem C100_ctor [IsStrictOrderedRing K] (gens : Nat) (wg dec : String) (nb : Nat) (cr fac etaM realb : Fl K) (limit : Nat) (pres : Bool) :
    (mgCtor gens wg dec nb cr fac etaM realb limit pres = .ok ⟨gens, wg, dec, nb, cr, fac, etaM, realb, limit, pres⟩ ↔
      (wg = "random" ∨ wg = "grid" ∨ wg = "low discrepancy") ∧ DecName dec ∧ NanOr 0 1 cr ∧ NanOr 0 1 fac ∧ (etaM = .nan ∨ .fin 0 ≤ etaM) ∧
      NanOr 0 1 realb ∧ 2 ≤ nb) ∧
    (mgCtor gens wg dec nb cr fac etaM realb limit pres = .ok ⟨gens, wg, dec, nb, cr, fac, etaM, realb, limit, pres⟩ ∨
      mgCtor gens wg dec nb cr fac etaM realb limit pres = .throws .invalidArgument) :=
  C72_ctor gens wg dec nb cr fac etaM realb limit pres

/-! ## Batch evaluation makes no difference -/

/-- the values a computation may return -/
def OnOk {τ α : Type} (m : Run τ α) (Q : α → Prop) : Prop := ∀ s a s', m s = (.ok a, s') → Q a

theorem onOk_pure {τ α : Type} {a : α} {Q : α → Prop} (h : Q a) : OnOk (pure a : Run τ α) Q := by
  intro s b s' e
  cases e
  exact h

theorem onOk_bind {τ α β : Type} {m : Run τ α} {k : α → Run τ β} {R : α → Prop} {Q : β → Prop} (h : OnOk m R) (h' : ∀ a, R a → OnOk (k a) Q) :
    OnOk (m >>= k) Q := by
  intro s b s' e
  change Run.bind m k s = _ at e
  unfold Run.bind at e
  rcases hm : m s with ⟨_ | _ | _ | _, s1⟩ <;> rw [hm] at e
  · exact h' _ (h _ _ _ hm) _ _ _ e
  · cases e
  · cases e
  · cases e

theorem onOk_true {τ α : Type} (m : Run τ α) : OnOk m (fun _ => True) := fun _ _ _ _ => trivial

theorem onOk_lift {τ α : Type} {o : Outcome α} {Q : α → Prop} (h : ∀ a, o = .ok a → Q a) : OnOk (Run.lift o : Run τ α) Q := by
  intro s a s' e
  exact h a (Prod.mk.inj e).1

theorem onOk_foldlM {τ α β : Type} {f : β → α → Run τ β} {Q : β → Prop} (hf : ∀ b a, Q b → OnOk (f b a) Q) :
    ∀ (l : List α) (b : β), Q b → OnOk (l.foldlM f b) Q := by
  intro l
  induction l with
  | nil => intro b h; exact onOk_pure h
  | cons a l ih => intro b h; rw [List.foldlM_cons]; exact onOk_bind (hf b a h) (fun b' h' => ih b' h')

theorem onOk_onRng {α : Type} {m : Run σ α} {Q : α → Prop} (h : OnOk m Q) : OnOk (onRng m : Run (St K σ) α) Q := by
  intro s a s' e
  unfold onRng at e
  rcases hm : m s.e with ⟨o, s1⟩
  rw [hm] at e
  cases e
  exact h _ _ _ hm

theorem bind_congr_onOk {τ α β : Type} {m : Run τ α} {k k' : α → Run τ β} {Q : α → Prop} (h : OnOk m Q) (hk : ∀ a, Q a → k a = k' a) :
    (m >>= k) = (m >>= k') := by
  funext s
  show Run.bind m k s = Run.bind m k' s
  unfold Run.bind
  rcases hm : m s with ⟨_ | _ | _ | _, s1⟩
  · dsimp only; rw [hk _ (h _ _ _ hm)]
  all_goals rfl

theorem set_length {l l' : List (Fl K)} {i : Nat} {x : Fl K} (h : Outcome.set l i x = .ok l') : l'.length = l.length := by
  unfold Outcome.set at h
  split at h
  · cases h; simp
  · cases h

theorem candidate_length [FloorRing K] (v : MoeadEnv K σ) (P : AProb K) (A : Moead K) (xs : List (List (Fl K))) (neigh : List (List Nat)) (fuel n : Nat)
    (whole : Bool) : OnOk (moeadCandidate v P A xs neigh fuel n whole) (fun x => x.length = P.info.nx) := by
  unfold moeadCandidate
  refine onOk_bind (onOk_true _) fun ps _ => onOk_bind (onOk_true _) fun p _ => onOk_bind (onOk_true _) fun q _ => onOk_bind (onOk_true _) fun x _ =>
    onOk_bind (onOk_true _) fun a _ => onOk_bind (onOk_true _) fun b _ => onOk_bind (R := fun c => c.length = P.info.nx) ?_ fun c hc => ?_
  · refine onOk_foldlM ?_ _ _ (by simp)
    intro c k hc
    unfold moeadGene
    refine onOk_bind (onOk_true _) fun _ _ => onOk_bind (onOk_true _) fun _ _ => onOk_bind (onOk_true _) fun _ _ => onOk_bind (onOk_true _) fun _ _ =>
      onOk_bind (onOk_true _) fun _ _ => onOk_bind (onOk_true _) fun _ _ => onOk_lift fun a h => (set_length h).trans hc
  · unfold polyImpl
    refine onOk_bind (R := fun c => c.length = P.info.nx) (onOk_foldlM ?_ _ _ hc) fun c hc => onOk_foldlM ?_ _ _ hc
    · intro c k hc
      unfold polyGene
      refine onOk_bind (onOk_true _) fun _ _ => onOk_bind (onOk_true _) fun _ _ => onOk_bind (onOk_true _) fun _ _ => onOk_bind (onOk_true _) fun _ _ => ?_
      split
      · exact onOk_bind (onOk_true _) fun _ _ => onOk_lift fun a h => (set_length h).trans hc
      · exact onOk_pure hc
    · intro c k hc
      unfold polyInt
      refine onOk_bind (onOk_true _) fun _ _ => onOk_bind (onOk_true _) fun _ _ => onOk_bind (onOk_true _) fun _ _ => ?_
      split
      · exact onOk_bind (onOk_true _) fun _ _ => onOk_lift fun a h => (set_length h).trans hc
      · exact onOk_pure hc

/-- The fitness function is a function `F` of the point, and the batch evaluator computes `F` for each point. -/
structure BatchOf (P : AProb K) (b : Batch K) (F : List (Fl K) → List (Fl K)) : Prop where
  fit : ∀ h x, x.length = P.info.nx → P.fit h x = .ok (F x)
  dim : ∀ x, x.length = P.info.nx → (F x).length = P.info.nf
  batch : ∀ h (xs : List (List (Fl K))), (∀ x ∈ xs, x.length = P.info.nx) → b h xs.flatten = .ok (xs.map F).flatten

/-- What the batch evaluator does. -/
theorem evalBatch_of {P : AProb K} {b : Batch K} {F : List (Fl K) → List (Fl K)} (hF : BatchOf P b F) (hnx : 0 < P.info.nx) (hnf : 0 < P.info.nf)
    (hnc : P.info.nc = 0) {xs : List (List (Fl K))} (hx : ∀ x ∈ xs, x.length = P.info.nx) (s : St K σ) :
    evalBatch P b xs s = (Outcome.ok (xs.map F), { s with evs := s.evs ++ xs.map (fun x => (x, Except.ok (F x))) }) := by
  have hno : P.info.nf = P.info.nobj := by unfold Info.nf; unfold Info.nc at hnc; omega
  have hfl := length_flatten_const hx
  have hin : checkInput P.info.nx xs.flatten = .ok () := checkInput_ok.mpr ⟨xs.length, by rw [hfl, Nat.mul_comm]⟩
  have hdiv : xs.flatten.length / P.info.nx = xs.length := by rw [hfl, Nat.mul_div_cancel _ hnx]
  have hdF : ∀ x ∈ xs.map F, x.length = P.info.nf := fun x hm => by obtain ⟨y, hy, rfl⟩ := List.mem_map.mp hm; exact hF.dim y (hx y hy)
  have hl := length_flatten_const hdF
  rw [List.length_map] at hl
  have hout : checkOutput P.info.nx P.info.nf xs.flatten (xs.map F).flatten = .ok () := by
    unfold checkOutput
    rw [if_neg (by rw [hl]; simp), if_neg (by rw [hdiv, hl, Nat.mul_div_cancel _ hnf]; simp)]
  have hch : (List.range xs.length).map (chunk (xs.map F).flatten P.info.nobj) = xs.map F := by
    apply List.ext_getElem?
    intro i
    by_cases hi : i < xs.length
    · rw [List.getElem?_map, List.getElem?_range hi, Option.map_some, ← hno, chunk_flatten (xs.map F) i hdF (by simpa using hi),
        List.getElem?_eq_getElem (l := xs.map F) (by simpa using hi)]
    · rw [List.getElem?_eq_none (by simpa using hi), List.getElem?_eq_none (by simpa using hi)]
  unfold evalBatch
  rw [hin]
  dsimp only
  rw [hF.batch s.evs xs hx]
  dsimp only
  rw [hout]
  dsimp only
  rw [hch, List.zip_map_right, List.map_map]
  have hz : ∀ l : List (List (Fl K)), (l.zip l).map (fun x => ((x.1, Except.ok (F x.2)) : ECall K)) = l.map (fun x => (x, Except.ok (F x))) := by
    intro l
    induction l with
    | nil => rfl
    | cons a l ih => simp only [List.zip_cons_cons, List.map_cons, ih]
  simpa [Function.comp_def] using hz xs

theorem mgEval_batch {P : AProb K} {b : Batch K} {F : List (Fl K) → List (Fl K)} (hF : BatchOf P b F) (hnx : 0 < P.info.nx) (hnf : 0 < P.info.nf)
    (hnc : P.info.nc = 0) {xs : List (List (Fl K))} (hx : ∀ x ∈ xs, x.length = P.info.nx) :
    (mgEval P (some b) xs : Run (St K σ) (List (List (Fl K)))) = mgEval P none xs := by
  have seq : ∀ (ys acc : List (List (Fl K))) (s : St K σ), (∀ x ∈ ys, x.length = P.info.nx) →
      ys.foldlM (mgEvalOne P) acc s = (Outcome.ok (acc ++ ys.map F), { s with evs := s.evs ++ ys.map (fun x => (x, Except.ok (F x))) }) := by
    intro ys
    induction ys with
    | nil => intro acc s _; simp [List.foldlM, Pure.pure]
    | cons y ys ih =>
      intro acc s hy
      rw [List.foldlM_cons]
      show Run.bind _ _ s = _
      have h1 : mgEvalOne P acc y s = (Outcome.ok (acc ++ [F y]), { s with evs := s.evs ++ [(y, Except.ok (F y))] }) := by
        unfold mgEvalOne
        show Run.bind _ _ s = _
        unfold Run.bind eval
        have hl := hy y (by simp)
        simp [Pop.probFitness, hF.fit _ y hl, hF.dim y hl, hl, Pure.pure]
      unfold Run.bind
      rw [h1]
      dsimp only
      rw [ih _ _ (fun x hx => hy x (by simp [hx]))]
      simp
  funext s
  show evalBatch P b xs s = xs.foldlM (mgEvalOne P) [] s
  rw [seq xs [] s hx, evalBatch_of hF hnx hnf hnc hx]
  simp

/-- C100 (batch evaluation). If the fitness is a function of the point and the batch evaluator computes this function for
each point, then a run with the batch evaluator does exactly the same as a run without: same outcome, same population, same
random engine, same evaluations. -/
theorem C100_batch [FloorRing K] (v : MoeadEnv K σ) (P : AProb K) (A : Moead K) (b : Batch K) (F : List (Fl K) → List (Fl K)) (hF : BatchOf P b F)
    (hnx : 0 < P.info.nx) (hnf : 0 < P.info.nf) (hnc : P.info.nc = 0) (fuel : Nat) (s : St K σ) :
    mgEvolve v P A (some b) fuel s = mgEvolve v P A none fuel s := by
  have key : ∀ W neigh NP, mgGen v P A (some b) W neigh NP fuel = mgGen v P A none W neigh NP fuel := by
    intro W neigh NP
    funext g q
    unfold mgGen
    refine bind_congr_onOk (onOk_true _) fun sh _ => ?_
    refine bind_congr_onOk (Q := fun items => ∀ it ∈ items, it.2.2.length = P.info.nx) (onOk_foldlM ?_ _ _ (by simp)) fun items hi => ?_
    · intro items n hi
      unfold mgMake
      refine onOk_bind (onOk_true _) fun _ _ => onOk_bind (onOk_true _) fun _ _ => onOk_bind (onOk_onRng (candidate_length v P A _ neigh fuel n _)) fun x hx => onOk_pure ?_
      intro it hit
      rcases List.mem_append.mp hit with hit | hit
      · exact hi it hit
      · rw [List.mem_singleton.mp hit]; exact hx
    · rw [mgEval_batch hF hnx hnf hnc]
      intro x hx
      obtain ⟨it, hit, rfl⟩ := List.mem_map.mp hx
      exact hi it hit
  unfold mgEvolve
  simp only [key]

/-! ## Examples -/

theorem mgDemo_runs (bfe : Option (Batch ℚ)) (hb : ∀ b, bfe = some b → b = moBatch) :
    wpn (StuckDraws moeadDemoEnv.g moeadDemoSt.pop.id.length 30) (mgEvolve moeadDemoEnv moDemo moeadDemoAlg bfe 30)
    (fun _ s' => MgDone (MoeadFinite moeadDemoEnv moDemo moeadDemoAlg moeadDemoSt) moeadDemoEnv moDemo moeadDemoAlg moeadDemoSt s')
    (fun e s' => MgFailed (Made (MoeadFinite moeadDemoEnv moDemo moeadDemoAlg moeadDemoSt) moDemo) moDemo bfe moeadDemoSt e s' ∨
      NoWeights moDemo moeadDemoAlg moeadDemoSt.pop.id.length ∧ s'.pop = moeadDemoSt.pop ∧ s'.evs = moeadDemoSt.evs) moeadDemoSt :=
  C100_evolve moeadDemoEnv _ demoGen_lawful sgaDist_lawful insSort_valid insSort_valid moDemo moDemo_sane (fun _ _ => trivial) rfl
    (by decide +kernel) rfl rfl (by simp [moDemo, Info.nf]) moeadDemoAlg (by simp [moeadDemoAlg]) (by norm_num [moeadDemoAlg])
    (Or.inr (Or.inl rfl)) (Or.inl rfl) (by simp [moeadDemoAlg]) (by norm_num [moeadDemoAlg]) bfe (fun b h => hb b h ▸ moBatch_ok) moeadDemoSt
    moeadDemo_inv (by simp [moeadDemoAlg, moeadDemoSt, moDemoSt]) (by norm_num [moeadDemoSt, moDemoSt]) 30 (by simp [moeadDemoAlg])

theorem mgDemo_ok : (mgEvolve moeadDemoEnv moDemo moeadDemoAlg (some moBatch) 30 moeadDemoSt).1 = .ok () := by decide +kernel
example : (mgEvolve moeadDemoEnv moDemo moeadDemoAlg (some moBatch) 30 moeadDemoSt).2.evs.length = 8 := by decide +kernel

/-- The hypothesis of `C100_ideal` and `C100_weighted` for this run. -/
example : ∃ (W : List (List (Fl ℚ))) (neigh : List (List Nat)) (z0 z1 : List (Fl ℚ)) (orders : List (List Nat)), orders.length = 1 ∧
    Passes (MgGeneration moeadDemoEnv moDemo moeadDemoAlg W neigh 8) orders (moeadDemoSt.pop, moeadDemoSt.evs, z0)
      ((mgEvolve moeadDemoEnv moDemo moeadDemoAlg (some moBatch) 30 moeadDemoSt).2.pop,
        (mgEvolve moeadDemoEnv moDemo moeadDemoAlg (some moBatch) 30 moeadDemoSt).2.evs, z1) := by
  have h := mgDemo_runs (some moBatch) (fun b h => (Option.some.inj h).symm)
  unfold wpn at h
  rcases hr : mgEvolve moeadDemoEnv moDemo moeadDemoAlg (some moBatch) 30 moeadDemoSt with ⟨o, s'⟩
  have ho := mgDemo_ok
  rw [hr] at h ho
  dsimp only at ho
  subst ho
  obtain ⟨-, -, W, neigh, z0, z1, orders, -, -, -, -, -, h5, h6, h7⟩ := h
  exact ⟨W, neigh, z0, z1, orders, h5, h7⟩

/-- The batch evaluator of the example computes the fitness function. -/
theorem moBatch_of : BatchOf moDemo moBatch moBatch.go where
  fit := by
    intro h x hx
    match x, hx with
    | [a, b], _ => rfl
  dim := by
    intro x hx
    match x, hx with
    | [a, b], _ => rfl
  batch := by
    intro h xs hx
    show Except.ok (moBatch.go xs.flatten) = _
    congr 1
    induction xs with
    | nil => rfl
    | cons x xs ih =>
      rw [List.flatten_cons, List.map_cons, List.flatten_cons, ← ih (fun y hy => hx y (by simp [hy]))]
      match x, hx x (by simp) with
      | [a, b], _ => rfl

example : mgEvolve moeadDemoEnv moDemo moeadDemoAlg (some moBatch) 30 moeadDemoSt = mgEvolve moeadDemoEnv moDemo moeadDemoAlg none 30 moeadDemoSt :=
  C100_batch moeadDemoEnv moDemo moeadDemoAlg moBatch _ moBatch_of (by decide) (by decide) rfl 30 moeadDemoSt

example : mgCtor 1 "grid" "bi" 2 (Fl.nan : Fl ℚ) (.fin 1) .pinf .nan 0 false = .ok ⟨1, "grid", "bi", 2, .nan, .fin 1, .pinf, .nan, 0, false⟩ :=
  (C100_ctor 1 "grid" "bi" 2 (Fl.nan : Fl ℚ) (.fin 1) .pinf .nan 0 false).1.mpr
    ⟨Or.inr (Or.inl rfl), Or.inr (Or.inr rfl), Or.inl rfl, Or.inr ⟨by simp, by simp⟩, Or.inr (by decide +kernel), Or.inl rfl, le_rfl⟩

example : mgEvolve moeadDemoEnv moDemo { moeadDemoAlg with neighbours := 8 } none 30 moeadDemoSt = (.throws .invalidArgument, moeadDemoSt) :=
  C100_throws _ _ _ _ _ _ (Or.inr (Or.inr (Or.inr (Or.inr (Or.inr (by simp [moeadDemoSt, moDemoSt]))))))

end Verif.Props
