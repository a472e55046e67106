import Verif.Proof.Moead
import Verif.Props.Nsga2

/-!
# C72: `moead`
-/

set_option autoImplicit false

namespace Verif.Props

open Verif Run Prob Pop Alg Genetic MO Spec

variable {K σ : Type} [Field K] [LinearOrder K]

/-- `z` is the component-wise minimum of `pts` (NaN being larger than all numbers). -/
def IdealOf (pts : List (List (Fl K))) (z : List (Fl K)) : Prop :=
  (∀ p ∈ pts, z.length = p.length) ∧
  ∀ (i : Nat) (m : Fl K), z[i]? = some m → (∃ p ∈ pts, p[i]? = some m) ∧ ∀ p ∈ pts, ∀ x, p[i]? = some x → m ≤ x

/-- What a run does. `Num` is what the arithmetic has to satisfy so that all points are inside the bounds. -/
def MoeadDone [FloorRing K] (Num : Prop) (v : MoeadEnv K σ) (P : AProb K) (A : Moead K) (s s' : St K σ) : Prop :=
  (∃ new, TrackedBy (Made Num P) P s new s') ∧ (∀ y ∈ s'.pop.x, Made Num P y) ∧
  ∃ (W : List (List (Fl K))) (neigh : List (List Nat)) (z0 z1 : List (Fl K)) (orders : List (List Nat)),
    W.length = s.pop.id.length ∧ (∀ w ∈ W, OnSimplex P.info.nf w) ∧
    neigh.length = s.pop.id.length ∧ (∀ (i : Nat) (ns : List Nat), neigh[i]? = some ns →
      IsNearest (fun a b => opDist v.op v.sq (W.getD a []) (W.getD b [])) s.pop.id.length A.neighbours i ns) ∧
    IdealOf s.pop.f z0 ∧
    orders.length = A.gens ∧ (∀ o ∈ orders, o.Perm (List.range s.pop.id.length)) ∧
    Visits (MoeadStep v P A W neigh s.pop.id.length) orders.flatten (s.pop, s.evs, z0) (s'.pop, s'.evs, z1)

/-- There are no `NP` weights with the method chosen. -/
def NoWeights (P : AProb K) (A : Moead K) (NP : Nat) : Prop :=
  NP < P.info.nf ∨ A.weightGen = "grid" ∧ (¬ ∃ H, NP = gridSize P.info.nf H) ∨ A.weightGen = "low discrepancy" ∧ 1601 < P.info.nf

/-- finite bounds, a population inside the bounds, and arithmetic that does not leave an interval -/
def MoeadFinite (v : MoeadEnv K σ) (P : AProb K) (A : Moead K) (s : St K σ) : Prop :=
  MoeadNum v A P.lb P.ub ∧ ∀ x ∈ s.pop.x, InBox P.lb P.ub 0 x

/-- C72. `moead::evolve`: there is one weight for each individual, all on the simplex; the neighbourhoods are the nearest
weights; the ideal point starts as the minimum over the population; in each generation each individual has its turn exactly
once, in some order; a turn (`MoeadStep`) makes one candidate (`CandOf`: differential evolution of the individual with the
difference of two different parents from the neighbourhood, then polynomial mutation), evaluates it, updates the ideal point by it, and then the
candidate replaces individuals of the neighbourhood (with diversity preservation possibly of the whole population): only
such that are worse for their own weight and the updated ideal point, all such unless diversity preservation stops it, and
then at most max(limit, 2). Nothing else changes, IDs stay, and candidates are inside the bounds if the arithmetic does not
leave an interval. The run can only fail by the user's fitness function, lack of memory, or when there are no weights.
It ends unless the random engine always delivers the same parent. -/
theorem C72_evolve [IsStrictOrderedRing K] [FloorRing K] (v : MoeadEnv K σ) (rep : K → Prop) (hg : v.g.Lawful rep) (hd : v.d.Lawful)
    (hsrt : ValidSort v.srt) (hsF : ValidSort v.srtF) (P : AProb K) (hP : SaneBounds P.lb P.ub P.nix) (hr : Reps rep P.lb P.ub)
    (hdim : P.info.nx = P.lb.length) (heq : someBoundEqual P.lb P.ub = false) (hst : P.info.stochastic = false) (hnc : P.info.nc = 0)
    (hnf : 2 ≤ P.info.nf) (A : Moead K) (hgens0 : 0 < A.gens) (hgens : A.gens + 1 < 2 ^ 32)
    (hw : A.weightGen = "random" ∨ A.weightGen = "grid" ∨ A.weightGen = "low discrepancy") (hm : DecName A.decomp)
    (hn2 : 2 ≤ A.neighbours) (hn31 : A.neighbours < 2 ^ 31) (s : St K σ) (hs : Inv P.info s.pop) (hNP : A.neighbours ≤ s.pop.id.length - 1)
    (h64 : s.pop.id.length < 2 ^ 64) (fuel : Nat) (hfuel : A.gens < fuel) :
    wpn (StuckDraws v.g s.pop.id.length fuel) (moeadEvolve v P A fuel) (fun _ s' => MoeadDone (MoeadFinite v P A s) v P A s s')
      (fun e s' => FailedBy (Made (MoeadFinite v P A s) P) P s e s' ∨ NoWeights P A s.pop.id.length ∧ s'.pop = s.pop ∧ s'.evs = s.evs) s := by
  generalize hNum : MoeadFinite v P A s = Num
  have hN : Num → MoeadNum v A P.lb P.ub := fun n => (hNum ▸ n : MoeadFinite v P A s).1
  have hB : ∀ x ∈ s.pop.x, Made Num P x := fun x hx => ⟨hs.wf.dimX x hx, fun n => (hNum ▸ n : MoeadFinite v P A s).2 x hx⟩
  have hobj : 0 < P.info.nobj := by unfold Info.nf at hnf; unfold Info.nc at hnc; omega
  unfold moeadEvolve
  rw [wpn_bind, wpn_get', if_neg (by simp [heq]), if_neg (by omega), if_neg (by omega), if_neg (by simp [hnc]), if_neg (by simp [hst]),
    if_neg (by omega), if_neg (by omega), wpn_bind, wpn_onRng]
  refine wpn_of_wp (wp_moeadWeights hg hsF hnf h64 hw ?_ ?_)
  · intro W e hW hWs
    have hWd : ∀ w ∈ W, w.length = P.info.nf := by
      intro w hw
      obtain ⟨g, rfl, hl, -⟩ := hWs w hw
      simpa using hl
    rw [wpn_bind]
    obtain ⟨neigh, hk, hkl, hkn⟩ := C51_knn_any_arithmetic v.op v.sq v.srt hsrt W A.neighbours P.info.nf hWd hn31
    rw [hk, wpn_lift_ok, wpn_bind]
    rw [hW] at hkl hkn
    have hfne : s.pop.f ≠ [] := by
      intro h
      have := hs.wf.fs
      rw [h] at this
      simp at this
      omega
    have hsame : SameLength s.pop.f := fun p hp q hq => (hs.wf.dimF p hp).trans (hs.wf.dimF q hq).symm
    obtain ⟨z0, hz0, hz1⟩ := (C07_ideal s.pop.f hfne).2 hsame
    rw [hz0, wpn_lift_ok, wpn_bind]
    obtain ⟨f0, hf0⟩ := List.exists_mem_of_ne_nil _ hfne
    have hzl : z0.length = P.info.nf := (hz1.1 f0 hf0).trans (hs.wf.dimF f0 hf0)
    have hnok : NeighOk neigh s.pop.id.length := by
      refine ⟨hkl, fun ns hns => ?_⟩
      obtain ⟨i, hi⟩ := List.getElem?_of_mem hns
      have := hkn i ns hi
      exact ⟨by rw [this.length]; omega, this.nodup, fun j hj => (this.valid j hj).1⟩
    have key := wpn_genLoop (N := StuckDraws v.g s.pop.id.length fuel) (body := moeadGen v P A W neigh s.pop.id.length fuel) hgens
      (E := FailedBy (Made Num P) P s)
      (fun k (b : List Nat × List (Fl K)) s' => b.1.Perm (List.range s.pop.id.length) ∧ b.2.length = P.info.nf ∧
        (∃ new, TrackedBy (Made Num P) P s new s') ∧ (∀ y ∈ s'.pop.x, Made Num P y) ∧
        ∃ orders : List (List Nat), orders.length = k ∧ (∀ o ∈ orders, o.Perm (List.range s.pop.id.length)) ∧
          Visits (MoeadStep v P A W neigh s.pop.id.length) orders.flatten (s.pop, s.evs, z0) (s'.pop, s'.evs, b.2)) ?_ fuel 0
      (List.range s.pop.id.length, z0) { s with e := e } (by omega) (by omega) ?_
    · refine key.mono ?_ (fun _ _ h => Or.inl h)
      rintro b s' ⟨-, -, h3, h4, orders, h5, h6, h7⟩
      rw [wpn_pure]
      exact ⟨h3, h4, W, neigh, z0, b.2, orders, hW, hWs, hkl, hkn, hz1, h5, h6, h7⟩
    · rintro k ⟨sh, z⟩ s1 hk ⟨h1, h2, ⟨new, h3⟩, h4, orders, h5, h6, h7⟩
      refine (wpn_moeadGen hg hd hP hr hdim hobj hm hN hW hWd hnok (by omega) fuel h2 h3 (by rw [h3.id]) h4 h1 (k + 1)).mono ?_ (fun _ _ h => h)
      rintro b s2 ⟨g0, g1, g2, g3, g4, g5⟩
      refine ⟨g0, g1, g2, g3, g4, orders ++ [b.1.1], by simp [h5], ?_, ?_⟩
      · intro o ho
        rcases List.mem_append.mp ho with ho | ho
        · exact h6 o ho
        · rw [List.mem_singleton.mp ho]; exact g1
      · rw [List.flatten_append, List.flatten_singleton]
        exact visits_append h7 g5
    · exact ⟨List.Perm.refl _, hzl, ⟨[], tracked_rng (tracked_refl hs) e⟩, hB, [], rfl, by simp, .refl _⟩
  · intro x e hno
    exact Or.inr ⟨hno, rfl, rfl⟩

/-- C72 (ideal point). Wherever in the run: the ideal point is the component-wise minimum of the initial one and all
objectives evaluated so far, for each component in which none of these is NaN. (`C72_evolve` says that the ideal point
with which a candidate is compared is the one after its own evaluation.) -/
theorem C72_ideal (v : MoeadEnv K σ) (P : AProb K) (A : Moead K) (W : List (List (Fl K))) (neigh : List (List Nat)) (NP : Nat) (turns : List Nat)
    (p0 p1 : Pop.State K) (evs0 evs1 : List (ECall K)) (z0 z1 : List (Fl K))
    (h : Visits (MoeadStep v P A W neigh NP) turns (p0, evs0, z0) (p1, evs1, z1)) :
    ∃ new : List (List (Fl K) × List (Fl K)), new.length = turns.length ∧ evs1 = evs0 ++ new.map (fun q => (q.1, Except.ok q.2)) ∧
      z1.length = z0.length ∧ (∀ q ∈ new, q.2.length = z0.length) ∧
      ∀ j : Nat, z0[j]? ≠ some Fl.nan → (∀ q ∈ new, q.2[j]? ≠ some Fl.nan) → ∀ m : Fl K, z1[j]? = some m →
        (z0[j]? = some m ∨ ∃ q ∈ new, q.2[j]? = some m) ∧ (∀ x, z0[j]? = some x → m ≤ x) ∧ ∀ q ∈ new, ∀ x, q.2[j]? = some x → m ≤ x := by
  suffices ∀ (l : List Nat) (a b : Pop.State K × List (ECall K) × List (Fl K)), Visits (MoeadStep v P A W neigh NP) l a b →
      ∃ new : List (List (Fl K) × List (Fl K)), new.length = l.length ∧ b.2.1 = a.2.1 ++ new.map (fun q => (q.1, Except.ok q.2)) ∧
      b.2.2.length = a.2.2.length ∧ (∀ q ∈ new, q.2.length = a.2.2.length) ∧
      ∀ j : Nat, a.2.2[j]? ≠ some Fl.nan → (∀ q ∈ new, q.2[j]? ≠ some Fl.nan) → ∀ m : Fl K, b.2.2[j]? = some m →
        (a.2.2[j]? = some m ∨ ∃ q ∈ new, q.2[j]? = some m) ∧ (∀ x, a.2.2[j]? = some x → m ≤ x) ∧ ∀ q ∈ new, ∀ x, q.2[j]? = some x → m ≤ x
    from this turns _ _ h
  intro l a b h
  induction h with
  | refl a => exact ⟨[], rfl, by simp, rfl, by simp, fun j _ _ m hm => ⟨Or.inl hm, fun x hx => by rw [hm] at hx; cases hx; exact le_rfl, by simp⟩⟩
  | @snoc l a b c n _ hstep ih =>
    obtain ⟨new, h1, h2, h3, h4, h5⟩ := ih
    obtain ⟨-, x, f, -, -, he, -, ⟨z1, z2, z3⟩, -⟩ := hstep
    refine ⟨new ++ [(x, f)], by simp [h1], by rw [he, h2]; simp, z1.trans h3, ?_, ?_⟩
    · intro q hq
      rcases List.mem_append.mp hq with hq | hq
      · exact h4 q hq
      · rw [List.mem_singleton.mp hq]; exact z2.trans h3
    · intro j hz hq m hm
      have hj := (List.getElem?_eq_some_iff.mp hm).1
      have hjb : j < b.2.2.length := by omega
      have hjf : j < f.length := by omega
      have hb := List.getElem?_eq_getElem hjb
      have hf := List.getElem?_eq_getElem hjf
      obtain ⟨i1, i2, i3⟩ := h5 j hz (fun q hq' => hq q (by simp [hq'])) _ hb
      have e := z3 j _ _ hb hf
      rw [hm] at e
      have hfn : f[j] ≠ .nan := fun h => hq (x, f) (by simp) (by rw [hf, h])
      have hbn : b.2.2[j] ≠ .nan := by
        intro h
        rcases i1 with i1 | ⟨q, hq1, hq2⟩
        · exact hz (by rw [i1, h])
        · exact hq q (by simp [hq1]) (by rw [hq2, h])
      generalize b.2.2[j] = zb at *
      generalize f[j] = fj at *
      have em : m = if Fl.lt zb fj then zb else fj := by simpa using e
      have hmz : m ≤ zb := by
        rw [em]; split
        · exact le_rfl
        · rename_i hlt
          rw [Bool.not_eq_true, ← Bool.not_eq_true, Fl.lt_iff hbn hfn] at hlt
          exact not_lt.mp hlt
      have hmf : m ≤ fj := by
        rw [em]; split
        · rename_i hlt
          exact le_of_lt ((Fl.lt_iff hbn hfn).mp hlt)
        · exact le_rfl
      refine ⟨?_, fun y hy => hmz.trans (i2 y hy), fun q hq' y hy => ?_⟩
      · rw [em]; split
        · rcases i1 with i1 | ⟨q, hq1, hq2⟩
          · exact Or.inl i1
          · exact Or.inr ⟨q, by simp [hq1], hq2⟩
        · exact Or.inr ⟨(x, f), by simp, hf⟩
      · rcases List.mem_append.mp hq' with hq' | hq'
        · exact hmz.trans (i3 q hq' y hy)
        · rw [List.mem_singleton.mp hq', hf] at hy
          cases hy
          exact hmf

/-- The claim on the ideal point is false with NaN: after 1 and NaN, 5 makes the ideal point forget the 1. -/
theorem C72_ideal_nan_false : ∃ z1 z2 : List (Fl ℚ), moeadIdeal 2 [.nan, .fin 0] [.fin 1, .fin 0] = .ok z1 ∧
    moeadIdeal 2 [.fin 5, .fin 0] z1 = .ok z2 ∧ z2 = [.fin 5, .fin 0] := by
  refine ⟨[.nan, .fin 0], [.fin 5, .fin 0], ?_, ?_, rfl⟩ <;> decide +kernel

/-- C72 (weighted sums). With the decomposition method "weighted" (for which the ideal point does not matter) the decomposed
value of the individual at position `i` for its weight never grows. -/
theorem C72_weighted (v : MoeadEnv K σ) (P : AProb K) (A : Moead K) (hm : A.decomp = "weighted") (W : List (List (Fl K))) (neigh : List (List Nat)) (NP : Nat)
    (turns : List Nat) (p0 p1 : Pop.State K) (evs0 evs1 : List (ECall K)) (z0 z1 : List (Fl K))
    (h : Visits (MoeadStep v P A W neigh NP) turns (p0, evs0, z0) (p1, evs1, z1)) (i : Nat) (w f0 : List (Fl K)) (a : Fl K) (hw : W[i]? = some w)
    (hf0 : p0.f[i]? = some f0) (ha : DecIs v A z0 w f0 a) :
    ∃ (f1 : List (Fl K)) (b : Fl K), p1.f[i]? = some f1 ∧ DecIs v A z1 w f1 b ∧ (b = a ∧ f1 = f0 ∨ Fl.lt b a = true) := by
  have swap : ∀ {z z' f : List (Fl K)} {a : Fl K}, z'.length = z.length → DecIs v A z w f a → DecIs v A z' w f a := by
    intro z z' f a hl hd
    unfold DecIs Dec.decomposeObjectives at *
    rw [hm] at *
    rwa [hl]
  suffices ∀ (l : List Nat) (s s' : Pop.State K × List (ECall K) × List (Fl K)), Visits (MoeadStep v P A W neigh NP) l s s' →
      s.1.f[i]? = some f0 → DecIs v A s.2.2 w f0 a →
      ∃ (f1 : List (Fl K)) (b : Fl K), s'.1.f[i]? = some f1 ∧ DecIs v A s'.2.2 w f1 b ∧ (b = a ∧ f1 = f0 ∨ Fl.lt b a = true)
    from this turns _ _ h hf0 ha
  intro l s s' h
  induction h with
  | refl s => exact fun h1 h2 => ⟨f0, a, h1, h2, Or.inl ⟨rfl, rfl⟩⟩
  | @snoc l s b c n _ hstep ih =>
    intro h1 h2
    obtain ⟨f1, b1, e1, e2, e3⟩ := ih h1 h2
    obtain ⟨whole, x, f, -, -, -, -, hz, ⟨ps, hr, -, -⟩⟩ := hstep
    by_cases hi : i ∈ ps
    · obtain ⟨w', f', a', b', k1, k2, k3, k4, k5⟩ := hr.better i hi
      rw [hw] at k1; cases k1
      rw [e1] at k2; cases k2
      have := swap hz.1 e2
      rw [DecIs] at this k3
      rw [this] at k3
      cases k3
      refine ⟨f, b', (hr.new i hi).2, k4, Or.inr ?_⟩
      rcases e3 with ⟨rfl, -⟩ | e3
      · exact k5
      · clear this
        cases b' <;> cases b1 <;> cases a <;> simp_all [Fl.lt]
        exact k5.trans e3
    · exact ⟨f1, b1, by rw [(hr.old i hi).2]; exact e1, swap hz.1 e2, e3⟩

/-- C72 (refusals): a bound equal to the other one, an empty population, fewer than two objectives, constraints, a stochastic
problem, too few individuals for the neighbourhoods. Nothing changes. -/
theorem C72_throws [FloorRing K] (v : MoeadEnv K σ) (P : AProb K) (A : Moead K) (fuel : Nat) (s : St K σ)
    (h : (∃ (i : Nat) (a : K), P.lb[i]? = some (.fin a) ∧ P.ub[i]? = some (.fin a)) ∨ s.pop.id.length = 0 ∨ P.info.nf < 2 ∨ P.info.nc ≠ 0 ∨
      P.info.stochastic = true ∨ s.pop.id.length < A.neighbours + 1) :
    moeadEvolve v P A fuel s = (.throws .invalidArgument, s) := by
  unfold moeadEvolve
  show Run.bind Run.get _ s = _
  simp only [Run.bind, Run.get]
  split
  · rfl
  rename_i h1
  split
  · rfl
  split
  · rfl
  split
  · rfl
  split
  · rfl
  split
  · rfl
  · exfalso
    rename_i h2 h3 h4 h5 h6
    rcases h with ⟨i, a, hl, hu⟩ | h | h | h | h | h
    · apply h1
      unfold someBoundEqual
      rw [List.any_eq_true]
      exact ⟨(.fin a, .fin a), List.mem_of_getElem? (List.getElem?_zip_eq_some.mpr ⟨hl, hu⟩), by simp [Fl.eq]⟩
    · exact h2 h
    · exact h3 h
    · exact h4 h
    · exact h5 h
    · omega

/-- C72 (nothing to do). With no generations asked for and none of the refusals, nothing changes. -/
theorem C72_no_generations [FloorRing K] (v : MoeadEnv K σ) (P : AProb K) (A : Moead K) (hA : A.gens = 0) (fuel : Nat) (s : St K σ)
    (heq : someBoundEqual P.lb P.ub = false) (hst : P.info.stochastic = false) (hnc : P.info.nc = 0)
    (hnf : 2 ≤ P.info.nf) (hN0 : 0 < s.pop.id.length) (hNP : A.neighbours ≤ s.pop.id.length - 1) :
    moeadEvolve v P A fuel s = (.ok (), s) := by
  unfold moeadEvolve
  show Run.bind Run.get _ s = _
  simp only [Run.bind, Run.get]
  rw [if_neg (by simp [heq]), if_neg (by omega), if_neg (by omega), if_neg (by simp [hnc]), if_neg (by simp [hst]),
    if_neg (by omega), if_pos hA]
  rfl

/-- C72 (constructor). The parameters are accepted exactly when the names are known, no number is out of range and the
neighbourhood has at least two members; NaN passes for the numbers. -/
theorem C72_ctor [IsStrictOrderedRing K] (gens : Nat) (wg dec : String) (nb : Nat) (cr fac etaM realb : Fl K) (limit : Nat) (pres : Bool) :
    (moeadCtor gens wg dec nb cr fac etaM realb limit pres = .ok ⟨gens, wg, dec, nb, cr, fac, etaM, realb, limit, pres⟩ ↔
      (wg = "random" ∨ wg = "grid" ∨ wg = "low discrepancy") ∧ DecName dec ∧ NanOr 0 1 cr ∧ NanOr 0 1 fac ∧ (etaM = .nan ∨ .fin 0 ≤ etaM) ∧
      NanOr 0 1 realb ∧ 2 ≤ nb) ∧
    (moeadCtor gens wg dec nb cr fac etaM realb limit pres = .ok ⟨gens, wg, dec, nb, cr, fac, etaM, realb, limit, pres⟩ ∨
      moeadCtor gens wg dec nb cr fac etaM realb limit pres = .throws .invalidArgument) := by
  have key : (etaM = .nan ∨ .fin 0 ≤ etaM) ↔ Fl.lt etaM (.fin 0) = false := by
    cases etaM <;> simp [Fl.lt, Fl.le_def, Fl.cls]
  have swap : ∀ a : Fl K, NanOr 0 1 a ↔ (Fl.gt a (.fin 1) || Fl.lt a (.fin 0)) = false := fun a => by rw [nanOr_iff, Bool.or_comm]
  rw [key, swap, swap, swap]
  unfold moeadCtor DecName
  constructor
  · by_cases h1 : wg ≠ "random" ∧ wg ≠ "grid" ∧ wg ≠ "low discrepancy"
    · rw [if_pos h1]
      simp only [reduceCtorEq, false_iff]
      rintro ⟨h | h | h, -⟩
      · exact h1.1 h
      · exact h1.2.1 h
      · exact h1.2.2 h
    rw [if_neg h1]
    by_cases h2 : dec ≠ "tchebycheff" ∧ dec ≠ "weighted" ∧ dec ≠ "bi"
    · rw [if_pos h2]
      simp only [reduceCtorEq, false_iff]
      rintro ⟨-, h | h | h, -⟩
      · exact h2.2.1 h
      · exact h2.1 h
      · exact h2.2.2 h
    rw [if_neg h2]
    have h1' : wg = "random" ∨ wg = "grid" ∨ wg = "low discrepancy" := by tauto
    have h2' : dec = "weighted" ∨ dec = "tchebycheff" ∨ dec = "bi" := by tauto
    cases (Fl.gt cr (.fin 1) || Fl.lt cr (.fin 0)) <;> cases (Fl.gt fac (.fin 1) || Fl.lt fac (.fin 0)) <;> cases Fl.lt etaM (.fin 0) <;>
      cases (Fl.gt realb (.fin 1) || Fl.lt realb (.fin 0)) <;> by_cases h3 : nb < 2 <;> simp [h1', h2', h3] <;> omega
  · split
    · exact Or.inr rfl
    split
    · exact Or.inr rfl
    split
    · exact Or.inr rfl
    split
    · exact Or.inr rfl
    split
    · exact Or.inr rfl
    split
    · exact Or.inr rfl
    split
    · exact Or.inr rfl
    · exact Or.inl rfl

/-- Exact arithmetic with any `pow` with the laws of `PowLaws`, a finite factor and a distribution index that is not negative. -/
theorem moeadNum_exact [IsStrictOrderedRing K] (v : MoeadEnv K σ) (A : Moead K) (hop : v.op = Fl.exact K) (hpw : PowLaws v.pw) (lb ub : List (Fl K))
    (hl : ∀ l ∈ lb, l.isFinite = true) (hu : ∀ u ∈ ub, u.isFinite = true) (F etaM : K) (hF : A.fac = .fin F) (hE : A.etaM = .fin etaM)
    (h2 : 0 ≤ etaM) : MoeadNum v A lb ub where
  finL := hl
  finU := hu
  cross l u x a b r t h1 h2 _ _ _ _ r1 r2 t1 t2 w w' hw hw' := by
    rw [hop, hF] at hw
    rw [hop] at hw' ⊢
    have ew : w = .fin (x + F * (a - b)) := by rw [hw]; simp [Fl.exact, Fl.sub, Fl.neg, Fl.add, Fl.mul, sub_eq_add_neg]
    have el : (Fl.exact K).add (.fin l) ((Fl.exact K).mul (.fin r) ((Fl.exact K).sub (.fin x) (.fin l))) = .fin (l + r * (x - l)) := by
      simp [Fl.exact, Fl.sub, Fl.neg, Fl.add, Fl.mul, sub_eq_add_neg]
    have eu : (Fl.exact K).sub (.fin u) ((Fl.exact K).mul (.fin t) ((Fl.exact K).sub (.fin u) (.fin x))) = .fin (u - t * (u - x)) := by
      simp [Fl.exact, Fl.sub, Fl.neg, Fl.add, Fl.mul, sub_eq_add_neg]
    rw [eu]
    rw [el, ew] at hw'
    generalize x + F * (a - b) = q at *
    by_cases h : q < l
    · rw [if_pos (by simp [Fl.lt, h])] at hw'
      have h3 : ¬ u < l + r * (x - l) := by nlinarith
      subst hw'
      rw [if_neg (by simpa [Fl.gt, Fl.lt] using h3)]
      simp only [Fl.fin_le_fin]
      constructor <;> nlinarith
    · rw [if_neg (by simpa [Fl.lt] using h)] at hw'
      subst hw'
      by_cases h3 : u < q
      · rw [if_pos (by simp [Fl.gt, Fl.lt, h3])]
        simp only [Fl.fin_le_fin]
        constructor <;> nlinarith
      · rw [if_neg (by simpa [Fl.gt, Fl.lt] using h3)]
        simp only [Fl.fin_le_fin]
        exact ⟨not_lt.mp h, not_lt.mp h3⟩
  poly l u y r hlu hy1 hy2 hr0 hr1 := by
    rw [hop, hE]
    exact polyValue_spec hpw hlu hy1 hy2 (by linarith) hr0 hr1

/-! ## Examples -/

def moeadDemoEnv : MoeadEnv ℚ (List ℚ) := { moDemoEnv with srtF := insSort, eps := .fin (1 / 10000), theta := .fin 5 }

/-- limit 1, with diversity preservation -/
def moeadDemoAlg : Moead ℚ := ⟨1, "grid", "weighted", 3, .fin 1, .fin (1 / 2), .fin 20, .fin (9 / 10), 1, true⟩

def moeadDemoSt : St ℚ (List ℚ) := { moDemoSt with e := (List.range 800).map (fun i => ((i * 37 % 101 : Nat) : ℚ) / 101) }

/-- Weights, neighbourhoods and ideal point as `moead::evolve` computes them, then the turn of individual 2. -/
def moeadDemoTurn : Run (St ℚ (List ℚ)) (List (Fl ℚ)) := do
  let W ← onRng (moeadWeights moeadDemoEnv 2 8 "grid")
  let neigh ← Run.lift (Knn.knn moeadDemoEnv.op moeadDemoEnv.sq moeadDemoEnv.srt W 3)
  let z ← Run.lift (ideal moeadDemoSt.pop.f)
  moeadOne moeadDemoEnv moDemo moeadDemoAlg W neigh 8 30 z 2

/-- The bound max(limit, 1) of the claim is false: with diversity preservation and limit 1 a single candidate (one
evaluation) replaces two individuals, because the limit is first looked at after a neighbour was tried. -/
theorem C72_limit_false : moeadDemoAlg.preserve = true ∧ moeadDemoAlg.limit = 1 ∧
    ((moeadDemoTurn moeadDemoSt).2.evs.map Prod.fst = [[.fin 3, .fin (1 / 2)]] ∧
    (moeadDemoTurn moeadDemoSt).2.pop.x[2]? = some [.fin 3, .fin (1 / 2)] ∧ (moeadDemoTurn moeadDemoSt).2.pop.x[4]? = some [.fin 3, .fin (1 / 2)]) ∧
    [Fl.fin 3, .fin (1 / 2)] ∉ moeadDemoSt.pop.x := by
  refine ⟨rfl, rfl, ⟨?_, ?_, ?_⟩, ?_⟩ <;> decide +kernel

theorem moeadDemo_inv : Inv moDemo.info moeadDemoSt.pop := moDemo_inv

/-- The hypotheses hold for the example. -/
theorem moeadDemo_runs : wpn (StuckDraws moeadDemoEnv.g moeadDemoSt.pop.id.length 30) (moeadEvolve moeadDemoEnv moDemo moeadDemoAlg 30)
    (fun _ s' => MoeadDone (MoeadFinite moeadDemoEnv moDemo moeadDemoAlg moeadDemoSt) moeadDemoEnv moDemo moeadDemoAlg moeadDemoSt s')
    (fun e s' => FailedBy (Made (MoeadFinite moeadDemoEnv moDemo moeadDemoAlg moeadDemoSt) moDemo) moDemo moeadDemoSt e s' ∨
      NoWeights moDemo moeadDemoAlg moeadDemoSt.pop.id.length ∧ s'.pop = moeadDemoSt.pop ∧ s'.evs = moeadDemoSt.evs) moeadDemoSt :=
  C72_evolve moeadDemoEnv _ demoGen_lawful sgaDist_lawful insSort_valid insSort_valid moDemo moDemo_sane (fun _ _ => trivial) rfl
    (by decide +kernel) rfl rfl (by simp [moDemo, Info.nf]) moeadDemoAlg (by simp [moeadDemoAlg]) (by norm_num [moeadDemoAlg])
    (Or.inr (Or.inl rfl)) (Or.inl rfl) (by simp [moeadDemoAlg]) (by norm_num [moeadDemoAlg]) moeadDemoSt moeadDemo_inv
    (by simp [moeadDemoAlg, moeadDemoSt, moDemoSt]) (by norm_num [moeadDemoSt, moDemoSt]) 30 (by simp [moeadDemoAlg])

theorem moeadDemo_ok : (moeadEvolve moeadDemoEnv moDemo moeadDemoAlg 30 moeadDemoSt).1 = .ok () := by decide +kernel
example : (moeadEvolve moeadDemoEnv moDemo moeadDemoAlg 30 moeadDemoSt).2.evs.length = 8 := by decide +kernel
example : (moeadEvolve moeadDemoEnv moDemo moeadDemoAlg 30 moeadDemoSt).2.pop.x[5]? = some [.fin (5 / 2), .fin 0] := by decide +kernel

/-- The hypothesis of `C72_ideal` and `C72_weighted` for this run of eight turns. -/
example : ∃ (W : List (List (Fl ℚ))) (neigh : List (List Nat)) (z0 z1 : List (Fl ℚ)) (turns : List Nat), turns.length = 8 ∧
    Visits (MoeadStep moeadDemoEnv moDemo moeadDemoAlg W neigh 8) turns (moeadDemoSt.pop, moeadDemoSt.evs, z0)
      ((moeadEvolve moeadDemoEnv moDemo moeadDemoAlg 30 moeadDemoSt).2.pop, (moeadEvolve moeadDemoEnv moDemo moeadDemoAlg 30 moeadDemoSt).2.evs, z1) := by
  have h := moeadDemo_runs
  unfold wpn at h
  rcases hr : moeadEvolve moeadDemoEnv moDemo moeadDemoAlg 30 moeadDemoSt with ⟨o, s'⟩
  have ho := moeadDemo_ok
  rw [hr] at h ho
  dsimp only at ho
  subst ho
  obtain ⟨-, -, W, neigh, z0, z1, orders, -, -, -, -, -, h5, h6, h7⟩ := h
  refine ⟨W, neigh, z0, z1, orders.flatten, ?_, h7⟩
  match orders, h5, h6 with
  | [o], _, h6 => simpa [moeadDemoSt, moDemoSt] using (h6 o (by simp)).length_eq

/-- Numbers: real arithmetic with real powers. -/
example (v : MoeadEnv ℝ σ) (hop : v.op = Fl.exact ℝ) (hpw : v.pw = powR) (A : Moead ℝ) (hF : A.fac = .fin (1 / 2)) (hE : A.etaM = .fin 20) :
    MoeadNum v A [.fin 0, .fin 0] [.fin 4, .fin 3] :=
  moeadNum_exact v A hop (by rw [hpw]; exact powR_laws) _ _ (by simp [Fl.isFinite]) (by simp [Fl.isFinite]) (1 / 2) 20 hF hE (by norm_num)

example : moeadCtor 1 "grid" "bi" 2 (Fl.nan : Fl ℚ) (.fin 1) .pinf .nan 0 false = .ok ⟨1, "grid", "bi", 2, .nan, .fin 1, .pinf, .nan, 0, false⟩ :=
  (C72_ctor 1 "grid" "bi" 2 (Fl.nan : Fl ℚ) (.fin 1) .pinf .nan 0 false).1.mpr
    ⟨Or.inr (Or.inl rfl), Or.inr (Or.inr rfl), Or.inl rfl, Or.inr ⟨by simp, by simp⟩, Or.inr (by decide +kernel), Or.inl rfl, le_rfl⟩

example : moeadEvolve moeadDemoEnv moDemo { moeadDemoAlg with neighbours := 8 } 30 moeadDemoSt = (.throws .invalidArgument, moeadDemoSt) :=
  C72_throws _ _ _ _ _ (Or.inr (Or.inr (Or.inr (Or.inr (Or.inr (by simp [moeadDemoSt, moDemoSt]))))))

end Verif.Props
