import Verif.Proof.Bee

/-!
# C84: bee_colony
-/

set_option autoImplicit false

namespace Verif.Props

open Verif Run Prob Pop Alg

variable {K σ : Type} [Field K] [LinearOrder K]

/-- What a colony consists of: the population, the calls of the fitness function so far, the fitnesses the algorithm
compares with, and the failures counted for every food source. -/
structure Hive (K : Type) where
  pop : Pop.State K
  evs : List (ECall K)
  book : List (List (Fl K))
  fails : List Nat

def hive (c : BeeVars K) (s : St K σ) : Hive K := ⟨s.pop, s.evs, c.fit, c.trial⟩

/-- the objective of `f` is smaller than that of `g`: C++ `f[0] < g[0]` -/
def StrictlyBelow (f g : List (Fl K)) : Prop := ∃ a b : Fl K, f[0]? = some a ∧ g[0]? = some b ∧ Fl.lt a b = true

/-- A bee at the source `i`: a neighbour is evaluated. It takes the place of the individual if its objective is smaller
than the one in the book, else a failure is counted. -/
def BeeMove (op : Fl.Ops K) (P : AProb K) (i : Nat) (a b : Hive K) : Prop :=
  ∃ (y f fb : List (Fl K)) (n : Nat), a.book[i]? = some fb ∧ a.fails[i]? = some n ∧ BeeNeighbour op P a.pop.x i y ∧
    b.evs = a.evs ++ [(y, .ok f)] ∧
    (StrictlyBelow f fb ∧ b.pop.x = a.pop.x.set i y ∧ b.pop.f = a.pop.f.set i f ∧ b.book = a.book.set i f ∧ b.fails = a.fails.set i 0 ∨
      ¬ StrictlyBelow f fb ∧ b.pop = a.pop ∧ b.book = a.book ∧ b.fails = a.fails.set i (incU n))

/-- The scout: a new point takes the place of individual `i`; the book is left as it is. -/
def BeeScouted (P : AProb K) (i : Nat) (a b : Hive K) : Prop :=
  ∃ (y f : List (Fl K)), InBox P.lb P.ub 0 y ∧ b.evs = a.evs ++ [(y, .ok f)] ∧ b.pop.x = a.pop.x.set i y ∧
    b.pop.f = a.pop.f.set i f ∧ b.book = a.book ∧ b.fails = a.fails.set i 0

/-- a step for every number of the list, in turn -/
inductive Along {α : Type} (R : Nat → α → α → Prop) : List Nat → α → α → Prop
  | nil (a : α) : Along R [] a a
  | snoc {l : List Nat} {i : Nat} {a b c : α} : Along R l a b → R i b c → Along R (l ++ [i]) a c

/-- One generation. `m` is the first of the sources with the most failures. If it has reached the limit it is left to the
scout; a bee is sent to all the others. Then as many onlookers as there are sources choose a source each: the source's
share `w` of the weights has to be larger than a number from [0, 1]. -/
def BeeGeneration (op : Fl.Ops K) (P : AProb K) (limit NP : Nat) (a b : Hive K) : Prop :=
  ∃ (m tm : Nat) (a1 a2 : Hive K) (w : List (Fl K)), a.fails[m]? = some tm ∧
    (∀ j t : Nat, a.fails[j]? = some t → t ≤ tm ∧ (t = tm → m ≤ j)) ∧
    Along (BeeMove op P) ((List.range NP).filter (fun i => decide (tm < limit ∨ i ≠ m))) a a1 ∧
    (tm < limit ∧ a2 = a1 ∨ limit ≤ tm ∧ BeeScouted P m a1 a2) ∧ beeWeights op a2.book NP = .ok w ∧
    Steps (fun h h' => ∃ (i : Nat) (r : K) (wi : Fl K), w[i]? = some wi ∧ 0 ≤ r ∧ r ≤ 1 ∧ Fl.lt (.fin r) wi = true ∧
      BeeMove op P i h h') NP a2 b

/-- invariant of the loops. `Calm`: no scout so far -/
structure BeeInv (Calm : Prop) (P : AProb K) (NP : Nat) (s0 : St K σ) (n : Nat) (c : BeeVars K) (new : List (ECall K)) (s : St K σ) : Prop where
  tr : Tracked P s0 new s
  cnt : new.length = n
  xs : c.xs = s.pop.x
  box : ∀ x ∈ s.pop.x, InBox P.lb P.ub 0 x
  fitL : c.fit.length = NP
  fit1 : ∀ f ∈ c.fit, f.length = 1
  trialL : c.trial.length = NP
  made : Each (fun x0 f0 x f => (x, f) = (x0, f0) ∨ (x, Except.ok f) ∈ new) s0.pop s.pop
  calm : Calm → c.fit = s.pop.f ∧ EachImproved new s0.pop s.pop

theorem lt_le {a b : Fl K} (h : Fl.lt a b = true) : Fl.le a b = true := by simp [Fl.le, h]

theorem made_set {new new' : List (ECall K)} {p0 p p' : Pop.State K} {i : Nat} {x f : List (Fl K)}
    (h : Each (fun x0 f0 x f => (x, f) = (x0, f0) ∨ (x, Except.ok f) ∈ new) p0 p) (hsub : ∀ p ∈ new, p ∈ new')
    (hm : (x, Except.ok f) ∈ new') (hix : i < p.x.length) (hif : i < p.f.length) (hx : p'.x = p.x.set i x) (hf : p'.f = p.f.set i f) :
    Each (fun x0 f0 x f => (x, f) = (x0, f0) ∨ (x, Except.ok f) ∈ new') p0 p' := by
  intro j x0 f0 y g h1 h2 h3 h4
  rw [hx, List.getElem?_set] at h3
  rw [hf, List.getElem?_set] at h4
  by_cases e : i = j
  · subst e
    simp only [if_true, hix, hif, Option.some.injEq] at h3 h4
    subst h3; subst h4
    exact Or.inr hm
  · rw [if_neg e] at h3 h4
    exact (h j x0 f0 y g h1 h2 h3 h4).imp id (fun h' => hsub _ h')

omit [Field K] [LinearOrder K] in
theorem set_only {f g : List (Fl K)} (hf : f.length = 1) (hg : g.length = 1) : g.set 0 (f[0]'(by omega)) = f := by
  match f, hf, g, hg with
  | [a], _, [b], _ => rfl

theorem move_fails {op : Fl.Ops K} {P : AProb K} {i : Nat} {a b : Hive K} (h : BeeMove op P i a b) :
    ∀ (j t : Nat), b.fails[j]? = some t → ∃ u : Nat, a.fails[j]? = some u ∧ t ≤ u + (if j = i then 1 else 0) := by
  obtain ⟨y, f, fb, n, _, h2, _, _, h5⟩ := h
  have : ∃ k ≤ n + 1, b.fails = a.fails.set i k := by
    rcases h5 with ⟨_, _, _, _, h⟩ | ⟨_, _, _, h⟩
    · exact ⟨0, by omega, h⟩
    · exact ⟨incU n, Nat.mod_le _ _, h⟩
  obtain ⟨k, hk, e⟩ := this
  intro j t ht
  rw [e, List.getElem?_set] at ht
  by_cases e' : i = j
  · subst e'
    have hlt := (List.getElem?_eq_some_iff.mp h2).1
    simp only [if_true, hlt, Option.some.injEq] at ht
    exact ⟨n, h2, by simp; omega⟩
  · rw [if_neg e'] at ht
    exact ⟨t, ht, by omega⟩

section
variable [IsStrictOrderedRing K]

theorem wp_beeTry {Calm : Prop} {v : Env K σ} {rep : K → Prop} (hg : v.g.Lawful rep) (hop : NoOverflow v.op) {P : AProb K}
    (hP : FiniteBox P) (hnobj : P.info.nobj = 1) (hnc : P.info.nc = 0) {s0 : St K σ} {NP : Nat} (hNP : s0.pop.id.length = NP)
    (h2 : 2 ≤ NP) {n : Nat} {c : BeeVars K} {new : List (ECall K)} {s : St K σ} (hi : BeeInv Calm P NP s0 n c new s) {i : Nat} (hiN : i < NP) :
    wp (beeTry v P NP c i) (fun c' s' => BeeMove v.op P i (hive c s) (hive c' s') ∧ ∃ new', BeeInv Calm P NP s0 (n + 1) c' new' s')
      (RunFailed P s0) s := by
  have hnf : P.info.nf = 1 := by simp only [Info.nf, Info.nc] at *; omega
  have hnx0 : 0 < P.info.nx := by rw [hP.nx]; exact List.length_pos_iff.mpr hP.bounds.nonempty
  have hidl : s.pop.id.length = NP := by rw [hi.tr.id, hNP]
  have hxl : s.pop.x.length = NP := by rw [hi.tr.inv.wf.xs, hidl]
  have hfl : s.pop.f.length = NP := by rw [hi.tr.inv.wf.fs, hidl]
  have hcx : c.xs.length = NP := by rw [hi.xs, hxl]
  have hfit := hi.fitL
  have htl := hi.trialL
  unfold beeTry
  rw [wp_bind, wp_onRng]
  refine wp_beeCandidate hg hop hP h2 hcx (by rw [hi.xs]; exact hi.box) hiN ?_
  intro x y j w e hx hj hyw hy hnb
  dsimp only
  rw [wp_bind]
  refine wp_eval_tracked hP.nx (tracked_rng hi.tr e) hy ?_ (fun _ _ h => h)
  intro f s1 hfl1 hpop _ ht
  have hpop' : s1.pop = s.pop := hpop
  rw [hnf] at hfl1
  have hfi1 : (c.fit[i]'(by omega)).length = 1 := hi.fit1 _ (List.getElem_mem _)
  have hsub : ∀ p ∈ new, p ∈ new ++ [(y, Except.ok f)] := fun p hp => List.mem_append_left _ hp
  have hevs : s1.evs = s.evs ++ [(y, .ok f)] := by rw [ht.evs, hi.tr.evs, List.append_assoc]
  have hfb := List.getElem?_eq_getElem (l := c.fit) (i := i) (by omega)
  have htb := List.getElem?_eq_getElem (l := c.trial) (i := i) (by omega)
  have hf0 := List.getElem?_eq_getElem (l := f) (i := 0) (by omega)
  have ho0 := List.getElem?_eq_getElem (l := c.fit[i]'(by omega)) (i := 0) (by omega)
  rw [wp_bind, wp_lift_get (by omega), wp_bind, wp_lift_get (by omega), wp_bind, wp_lift_get (by omega)]
  split
  · rename_i hlt
    have hsb : StrictlyBelow f (c.fit[i]'(by omega)) := ⟨_, _, hf0, ho0, hlt⟩
    have e1 : (c.fit[i]'(by omega)).set 0 (f[0]'(by omega)) = f := set_only hfl1 hfi1
    have hxi : c.xs[i]'(by omega) = x := by
      rw [List.getElem?_eq_getElem (by omega)] at hx; exact Option.some.inj hx
    have hylen : y.length = x.length := by rw [hyw]; simp
    have e2 : x.set j (y[j]'(by omega)) = y := by subst hyw; simp
    rw [wp_bind, wp_lift_set (by omega), e1, wp_bind, wp_lift_set (by omega), wp_bind, wp_lift_get (by omega), wp_bind,
      wp_lift_get (by omega), wp_bind, wp_lift_set (by rw [hxi]; exact hj), wp_bind, wp_lift_set (by omega), wp_bind]
    refine wp_setXF_tracked hnx0 (by omega) ht (by rw [hpop']; omega) (by rw [hP.nx]; exact hy.1) (by rw [hnf]; exact hfl1) ?_ (fun _ _ h => h)
    intro s2 ht2 _ hx2 hf2 _
    rw [hpop'] at hx2 hf2
    rw [wp_bind, wp_lift_set (by omega), wp_pure]
    refine ⟨⟨y, f, _, _, hfb, htb, by show BeeNeighbour v.op P s.pop.x i y; rw [← hi.xs]; exact hnb, ?_, Or.inl ⟨hsb, hx2, hf2, rfl, rfl⟩⟩, new ++ [(y, .ok f)], ht2,
      by simp [hi.cnt], ?_, by rw [hx2]; exact box_set hi.box hy, by simpa using hfit, ?_, by simpa using htl,
      made_set hi.made hsub (by simp) (by omega) (by omega) hx2 hf2, fun hC => ⟨?_, ?_⟩⟩
    · show s2.evs = s.evs ++ _
      rw [ht2.evs, hi.tr.evs, List.append_assoc]
    · show c.xs.set i _ = s2.pop.x
      rw [hx2, hxi, e2, hi.xs]
    · intro g hg
      rcases List.mem_or_eq_of_mem_set hg with hg | rfl
      · exact hi.fit1 g hg
      · exact hfl1
    · show c.fit.set i f = s2.pop.f
      rw [hf2, (hi.calm hC).1]
    · refine eachImproved_set hi.tr.inv.wf (eachImproved_mono hsub (hi.calm hC).2) (fi := c.fit[i]'(by omega)) ?_ (by simp) ?_ hx2 hf2
      · rw [← (hi.calm hC).1]; exact hfb
      · exact ⟨_, _, hf0, ho0, lt_le hlt⟩
  · rename_i hlt
    rw [wp_bind, wp_lift_get (by omega), wp_bind, wp_lift_set (by omega), wp_pure]
    refine ⟨⟨y, f, _, _, hfb, htb, by show BeeNeighbour v.op P s.pop.x i y; rw [← hi.xs]; exact hnb, hevs, Or.inr ⟨?_, hpop', rfl, rfl⟩⟩, new ++ [(y, .ok f)], ht,
      by simp [hi.cnt], by rw [hpop']; exact hi.xs, by rw [hpop']; exact hi.box, hfit, hi.fit1, by simpa using htl, ?_, ?_⟩
    · rintro ⟨a, b, ha, hb, hab⟩
      rw [hf0] at ha; rw [ho0] at hb; cases ha; cases hb
      exact hlt hab
    · rw [hpop']
      intro j x0 f0 y g h1 h2 h3 h4
      exact (hi.made j x0 f0 y g h1 h2 h3 h4).imp id (fun h => hsub _ h)
    · rw [hpop']
      exact fun hC => ⟨(hi.calm hC).1, eachImproved_mono hsub (hi.calm hC).2⟩

theorem wp_beeScout {Calm : Prop} {v : Env K σ} {rep : K → Prop} (hg : v.g.Lawful rep) (hop : NoOverflow v.op) {P : AProb K}
    (hP : FiniteBox P) (hnobj : P.info.nobj = 1) {s0 : St K σ} {NP : Nat} (hNP : s0.pop.id.length = NP)
    {n : Nat} {c : BeeVars K} {new : List (ECall K)} {s : St K σ} (hi : BeeInv Calm P NP s0 n c new s) (hC : ¬ Calm) {i : Nat} (hiN : i < NP) :
    wp (beeScout v P i c) (fun c' s' => BeeScouted P i (hive c s) (hive c' s') ∧ ∃ new', BeeInv Calm P NP s0 (n + 1) c' new' s')
      (RunFailed P s0) s := by
  have hnx0 : 0 < P.info.nx := by rw [hP.nx]; exact List.length_pos_iff.mpr hP.bounds.nonempty
  have hidl : s.pop.id.length = NP := by rw [hi.tr.id, hNP]
  have hxl : s.pop.x.length = NP := by rw [hi.tr.inv.wf.xs, hidl]
  have hfl : s.pop.f.length = NP := by rw [hi.tr.inv.wf.fs, hidl]
  have hcx : c.xs.length = NP := by rw [hi.xs, hxl]
  have htl := hi.trialL
  unfold beeScout
  rw [wp_bind, wp_lift_get (by omega), wp_bind, wp_onRng]
  refine (wp_beeNewPoint hg hop hP (hi.box _ (by rw [← hi.xs]; exact List.getElem_mem _)) _).mono ?_ (fun _ _ h => h)
  intro y e hy
  rw [wp_bind, wp_lift_set (by omega), wp_bind]
  refine wp_eval_tracked hP.nx (tracked_rng hi.tr e) hy ?_ (fun _ _ h => h)
  intro f s1 hfl1 hpop _ ht
  have hpop' : s1.pop = s.pop := hpop
  rw [wp_bind]
  refine wp_setXF_tracked hnx0 (by omega) ht (by rw [hpop']; omega) (by rw [hP.nx]; exact hy.1) hfl1 ?_ (fun _ _ h => h)
  intro s2 ht2 _ hx2 hf2 _
  rw [hpop'] at hx2 hf2
  rw [wp_bind, wp_lift_set (by omega), wp_pure]
  refine ⟨⟨y, f, hy, ?_, hx2, hf2, rfl, rfl⟩, new ++ [(y, .ok f)], ht2, by simp [hi.cnt], ?_, by rw [hx2]; exact box_set hi.box hy,
    hi.fitL, hi.fit1, by simpa using htl, made_set hi.made (fun p hp => List.mem_append_left _ hp) (by simp) (by omega) (by omega) hx2 hf2,
    fun h => absurd h hC⟩
  · show s2.evs = s.evs ++ _
    rw [ht2.evs, hi.tr.evs, List.append_assoc]
  · show c.xs.set i y = s2.pop.x
    rw [hx2, hi.xs]

omit [IsStrictOrderedRing K] in
theorem beeInv_rng {Calm : Prop} {P : AProb K} {NP : Nat} {s0 : St K σ} {n : Nat} {c : BeeVars K} {new : List (ECall K)} {s : St K σ}
    (h : BeeInv Calm P NP s0 n c new s) (e : σ) : BeeInv Calm P NP s0 n c new { s with e := e } :=
  ⟨tracked_rng h.tr e, h.cnt, h.xs, h.box, h.fitL, h.fit1, h.trialL, h.made, h.calm⟩

/-- the onlookers; `B` bounds the failures -/
theorem wpn_beeLook {Calm : Prop} {v : Env K σ} {rep : K → Prop} (hg : v.g.Lawful rep) (hop : NoOverflow v.op) {P : AProb K}
    (hP : FiniteBox P) (hnobj : P.info.nobj = 1) (hnc : P.info.nc = 0) {s0 : St K σ} {NP : Nat} (hNP : s0.pop.id.length = NP)
    (h2 : 2 ≤ NP) {n B : Nat} {w : List (Fl K)} (hw : w.length = NP) (a2 : Hive K) (m : Nat) :
    ∀ (t i : Nat) (c : BeeVars K) (new : List (ECall K)) (s : St K σ), t ≤ NP → i < NP → BeeInv Calm P NP s0 (n + t) c new s →
      (∀ k ∈ c.trial, k ≤ B + t) →
      Steps (fun h h' => ∃ (i : Nat) (r : K) (wi : Fl K), w[i]? = some wi ∧ 0 ≤ r ∧ r ≤ 1 ∧ Fl.lt (.fin r) wi = true ∧
        BeeMove v.op P i h h') t a2 (hive c s) →
      wpn True (beeLook v P NP w m t i c) (fun c' s' =>
        Steps (fun h h' => ∃ (i : Nat) (r : K) (wi : Fl K), w[i]? = some wi ∧ 0 ≤ r ∧ r ≤ 1 ∧ Fl.lt (.fin r) wi = true ∧
          BeeMove v.op P i h h') NP a2 (hive c' s') ∧ (∀ k ∈ c'.trial, k ≤ B + NP) ∧
        ∃ new', BeeInv Calm P NP s0 (n + NP) c' new' s') (RunFailed P s0) s := by
  induction m with
  | zero => intro t i c new s _ _ _ _ _; exact wpn_nofuel trivial
  | succ m ih =>
    intro t i c new s ht hi hI hB hS
    rw [beeLook]
    split
    · rename_i hlt
      rw [wpn_bind, wpn_onRng]
      refine wpn_of_wp (Gen.wp_draw01 hg (fun r e h0 h1 => ?_))
      rw [wpn_bind, wpn_lift_get (by omega)]
      have hmod : (i + 1) % NP < NP := Nat.mod_lt _ (by omega)
      split
      · rename_i hrw
        rw [wpn_bind]
        refine wpn_of_wp ((wp_beeTry hg hop hP hnobj hnc hNP h2 (beeInv_rng hI e) hi).mono ?_ (fun _ _ h => h))
        rintro c' s' ⟨hm, new', hI'⟩
        refine ih (t + 1) _ c' new' s' (by omega) hmod hI' ?_ (.snoc hS ⟨i, r, _, List.getElem?_eq_getElem (by omega), h0, h1, hrw, hm⟩)
        intro k hk
        obtain ⟨j, hj⟩ := List.mem_iff_getElem?.mp hk
        obtain ⟨u, hu, hle⟩ := move_fails hm j k hj
        have := hB u (List.mem_of_getElem? hu)
        split at hle <;> omega
      · exact ih t _ c new _ ht hmod (beeInv_rng hI e) hB hS
    · have : t = NP := by omega
      subst this
      exact ⟨hS, hB, new, hI⟩

/-- the employed bees -/
theorem wp_beeEmployed {Calm : Prop} {v : Env K σ} {rep : K → Prop} (hg : v.g.Lawful rep) (hop : NoOverflow v.op) {P : AProb K}
    (hP : FiniteBox P) (hnobj : P.info.nobj = 1) (hnc : P.info.nc = 0) {s0 : St K σ} {NP : Nat} (hNP : s0.pop.id.length = NP)
    (h2 : 2 ≤ NP) {limit mi tm n B : Nat} {c : BeeVars K} {new : List (ECall K)} {s : St K σ} (hI : BeeInv Calm P NP s0 n c new s)
    (hB : ∀ k ∈ c.trial, k ≤ B) (hmi : c.trial[mi]? = some tm) :
    wp ((List.range NP).foldlM (beeEmployed v P limit NP mi) c) (fun c' s' =>
      Along (BeeMove v.op P) ((List.range NP).filter (fun i => decide (tm < limit ∨ i ≠ mi))) (hive c s) (hive c' s') ∧
      (∀ k ∈ c'.trial, k ≤ B + 1) ∧ ∃ new', BeeInv Calm P NP s0 (n + if tm < limit then NP else NP - 1) c' new' s')
      (RunFailed P s0) s := by
  have hlen := hI.trialL
  have hmN : mi < NP := by rw [← hlen]; exact (List.getElem?_eq_some_iff.mp hmi).1
  refine (wp_range (fun i c' s' =>
    Along (BeeMove v.op P) ((List.range i).filter (fun i => decide (tm < limit ∨ i ≠ mi))) (hive c s) (hive c' s') ∧
    (∀ j k : Nat, c'.trial[j]? = some k → k ≤ B + (if j < i then 1 else 0)) ∧ (i ≤ mi → c'.trial[mi]? = some tm) ∧
    ∃ new', BeeInv Calm P NP s0 (n + if tm < limit ∨ i ≤ mi then i else i - 1) c' new' s') NP c s ?_ ?_).mono ?_ (fun _ _ h => h)
  · refine ⟨.nil _, fun j k h => by simpa using hB k (List.mem_of_getElem? h), fun _ => hmi, new, ?_⟩
    simpa using hI
  · rintro i c' s' hi ⟨hA, hF, hM, new', hI'⟩
    have hlen' := hI'.trialL
    unfold beeEmployed
    rw [wp_bind, wp_lift_get (by omega)]
    have hti := List.getElem?_eq_getElem (l := c'.trial) (i := i) (by omega)
    have hcond : c'.trial[i]'(by omega) < limit ∨ i ≠ mi ↔ tm < limit ∨ i ≠ mi := by
      by_cases e : i = mi
      · subst e
        have := hM le_rfl
        rw [hti] at this
        rw [Option.some.inj this]
      · simp [e]
    rw [List.range_succ, List.filter_append]
    by_cases hc : tm < limit ∨ i ≠ mi
    · rw [if_pos (hcond.mpr hc), List.filter_cons_of_pos (by simpa using hc), List.filter_nil]
      refine (wp_beeTry hg hop hP hnobj hnc hNP h2 hI' hi).mono ?_ (fun _ _ h => h)
      rintro c1 s1 ⟨hm, new1, hI1⟩
      refine ⟨.snoc hA hm, ?_, ?_, new1, ?_⟩
      · intro j k hj
        obtain ⟨u, hu, hle⟩ := move_fails hm j k hj
        have := hF j u hu
        by_cases e : j = i
        · subst e; simp only [if_true, lt_irrefl, if_false] at hle this
          rw [if_pos (by omega)]; omega
        · rw [if_neg e] at hle
          split at this
          · rw [if_pos (by omega)]; omega
          · split <;> omega
      · intro hle
        have hm0 := hM (by omega)
        obtain ⟨_, _, _, k, _, _, _, _, h5⟩ := hm
        have : ∃ k', c1.trial = c'.trial.set i k' := by
          rcases h5 with ⟨_, _, _, _, h⟩ | ⟨_, _, _, h⟩ <;> exact ⟨_, h⟩
        obtain ⟨k', hk'⟩ := this
        rw [hk', List.getElem?_set_ne (by omega)]
        exact hm0
      · have : (n + if tm < limit ∨ i ≤ mi then i else i - 1) + 1 = n + if tm < limit ∨ i + 1 ≤ mi then i + 1 else i + 1 - 1 := by
          split <;> split <;> omega
        rwa [this] at hI1
    · rw [if_neg (fun h => hc (hcond.mp h)), List.filter_cons_of_neg (by simpa using hc), List.filter_nil, List.append_nil, wp_pure]
      refine ⟨hA, ?_, fun h => by omega, new', ?_⟩
      · intro j k hj
        have := hF j k hj
        split at this
        · rw [if_pos (by omega)]; omega
        · split <;> omega
      · have : (if tm < limit ∨ i ≤ mi then i else i - 1) = if tm < limit ∨ i + 1 ≤ mi then i + 1 else i + 1 - 1 := by
          split <;> split <;> omega
        rwa [this] at hI'
  · rintro c' s' ⟨hA, hF, _, new', hI'⟩
    refine ⟨hA, ?_, new', ?_⟩
    · intro k hk
      obtain ⟨j, hj⟩ := List.mem_iff_getElem?.mp hk
      have := hF j k hj
      split at this <;> omega
    · have : (if tm < limit ∨ NP ≤ mi then NP else NP - 1) = if tm < limit then NP else NP - 1 := by
        simp [show ¬ NP ≤ mi by omega]
      rwa [this] at hI'

/-- a generation -/
theorem wpn_beeGen {Calm : Prop} {v : Env K σ} {rep : K → Prop} (hg : v.g.Lawful rep) (hop : NoOverflow v.op) {P : AProb K}
    (hP : FiniteBox P) (hnobj : P.info.nobj = 1) (hnc : P.info.nc = 0) {s0 : St K σ} {NP : Nat} (hNP : s0.pop.id.length = NP)
    (h2 : 2 ≤ NP) {limit m g n B : Nat} {c : BeeVars K} {new : List (ECall K)} {s : St K σ} (hI : BeeInv Calm P NP s0 n c new s)
    (hB : ∀ k ∈ c.trial, k ≤ B) (hC : Calm → B < limit) :
    wpn True (beeGen v P limit NP m g c) (fun r s' => r.2 = false ∧ BeeGeneration v.op P limit NP (hive c s) (hive r.1 s') ∧
      (∀ k ∈ r.1.trial, k ≤ B + (NP + 1)) ∧ ∃ new', BeeInv Calm P NP s0 (n + 2 * NP) r.1 new' s') (RunFailed P s0) s := by
  unfold beeGen
  obtain ⟨mi, tm, e1, e2, e3⟩ := beeMax_spec hI.trialL h2
  have hmN : mi < NP := by rw [← hI.trialL]; exact (List.getElem?_eq_some_iff.mp e2).1
  rw [wpn_bind, e1, wpn_lift_ok, wpn_bind, Outcome.get_eq_ok_iff.mpr e2, wpn_lift_ok, wpn_bind]
  refine wpn_of_wp ((wp_beeEmployed hg hop hP hnobj hnc hNP h2 (limit := limit) hI hB e2).mono ?_ (fun _ _ h => h))
  rintro c1 s1 ⟨hA, hB1, new1, hI1⟩
  have rest : ∀ (c2 : BeeVars K) (new2 : List (ECall K)) (s2 : St K σ), BeeInv Calm P NP s0 (n + NP) c2 new2 s2 →
      (∀ k ∈ c2.trial, k ≤ B + 1) →
      (tm < limit ∧ hive c2 s2 = hive c1 s1 ∨ limit ≤ tm ∧ BeeScouted P mi (hive c1 s1) (hive c2 s2)) →
      wpn True (do
        let p ← Run.lift (beeWeights v.op c2.fit NP)
        let c ← beeLook v P NP p m 0 0 c2
        pure (c, false)) (fun r s' => r.2 = false ∧ BeeGeneration v.op P limit NP (hive c s) (hive r.1 s') ∧
      (∀ k ∈ r.1.trial, k ≤ B + (NP + 1)) ∧ ∃ new', BeeInv Calm P NP s0 (n + 2 * NP) r.1 new' s') (RunFailed P s0) s2 := by
    intro c2 new2 s2 hI2 hB2 hstep
    obtain ⟨w, hw, hwl⟩ := beeWeights_ok v.op hI2.fitL hI2.fit1
    rw [wpn_bind, hw, wpn_lift_ok, wpn_bind]
    refine (wpn_beeLook (n := n + NP) hg hop hP hnobj hnc hNP h2 hwl (hive c2 s2) m 0 0 c2 new2 s2 (by omega) (by omega) hI2 hB2 (.refl _)).mono ?_
      (fun _ _ h => h)
    rintro c3 s3 ⟨hS, hB3, new3, hI3⟩
    refine ⟨rfl, ⟨mi, tm, hive c1 s1, hive c2 s2, w, e2, e3, hA, hstep, hw, hS⟩, fun k hk => ?_, new3, ?_⟩
    · have := hB3 k hk; omega
    · rwa [show n + NP + NP = n + 2 * NP by omega] at hI3
  rw [wpn_bind]
  unfold beeScoutPhase
  split
  · rename_i hge
    rw [if_neg (by omega)] at hI1
    have hnC : ¬ Calm := fun h => by
      have := hC h
      have := hB tm (List.mem_of_getElem? e2)
      omega
    refine wpn_of_wp ((wp_beeScout hg hop hP hnobj hNP hI1 hnC hmN).mono ?_ (fun _ _ h => h))
    rintro c2 s2 ⟨hsc, new2, hI2⟩
    rw [show n + (NP - 1) + 1 = n + NP by omega] at hI2
    refine rest c2 new2 s2 hI2 ?_ (Or.inr ⟨hge, hsc⟩)
    obtain ⟨_, _, _, _, _, _, _, ht⟩ := hsc
    intro k hk
    rw [show c2.trial = c1.trial.set mi 0 from ht] at hk
    rcases List.mem_or_eq_of_mem_set hk with hk | rfl
    · exact hB1 k hk
    · omega
  · rename_i hlt
    rw [if_pos (by omega)] at hI1
    exact rest c1 new1 s1 hI1 hB1 (Or.inl ⟨by omega, rfl⟩)

/-- What `bee_colony::evolve` has done. -/
structure BeeDone (op : Fl.Ops K) (P : AProb K) (A : Bee) (s s' : St K σ) : Prop where
  inv : Inv P.info s'.pop
  id : s'.pop.id = s.pop.id
  box : ∀ x ∈ s'.pop.x, InBox P.lb P.ub 0 x
  run : ∃ h : Hive K, Steps (BeeGeneration op P A.limit s.pop.id.length) A.gens
    ⟨s.pop, s.evs, s.pop.f, List.replicate s.pop.id.length 0⟩ h ∧ h.pop = s'.pop ∧ h.evs = s'.evs
  work : ∃ new, s'.evs = s.evs ++ new ∧ (∀ p ∈ new, InBox P.lb P.ub 0 p.1) ∧ (∀ p ∈ new, ∃ h, p.2 = P.fit h p.1) ∧
    new.length = 2 * s.pop.id.length * A.gens ∧
    Each (fun x0 f0 x f => (x, f) = (x0, f0) ∨ (x, Except.ok f) ∈ new) s.pop s'.pop ∧
    ((s.pop.id.length + 1) * (A.gens - 1) < A.limit → EachImproved new s.pop s'.pop)

/-- C84, main part. Whatever the engine, the objective function and the limit: a run that ends has made `gens`
generations as described by `BeeGeneration`, two evaluations per individual and generation, all inside the bounds. The
individuals are the initial ones or points evaluated. As long as no counter can have reached the limit before the last
generation, no individual gets worse. The run may not end (`C84_hang`). -/
theorem C84_evolve (v : Env K σ) (rep : K → Prop) (hg : v.g.Lawful rep) (hop : NoOverflow v.op) (P : AProb K)
    (hP : FiniteBox P) (hnobj : P.info.nobj = 1) (hnc : P.info.nc = 0) (hst : P.info.stochastic = false) (A : Bee) (hA : 0 < A.limit)
    (hgens : A.gens + 1 < 2 ^ 32) (s : St K σ) (hi : Inv P.info s.pop) (h2 : 2 ≤ s.pop.id.length)
    (hbox : ∀ x ∈ s.pop.x, InBox P.lb P.ub 0 x) (m fuel : Nat) (hfuel : A.gens < fuel) :
    wpn True (beeEvolve v P A m fuel) (fun _ s' => BeeDone v.op P A s s') (RunFailed P s) s := by
  have hnf : P.info.nf = 1 := by simp only [Info.nf, Info.nc] at *; omega
  unfold beeEvolve
  rw [if_neg (by omega), if_neg (by omega), if_neg (by simp [hst]), wpn_bind, wpn_get', if_neg (by omega)]
  split
  · rename_i h0
    refine ⟨hi, rfl, hbox, ⟨_, by rw [h0]; exact .refl _, rfl, rfl⟩, ⟨[], by simp, by simp, by simp, by simp [h0], ?_, fun _ => each_refl _ _⟩⟩
    intro i x0 f0 x f h1 h2 h3 h4
    rw [h1] at h3; rw [h2] at h4; cases h3; cases h4; exact Or.inl rfl
  · rename_i h0
    rw [wpn_bind]
    have key := wpn_genLoop (N := True) (body := beeGen v P A.limit s.pop.id.length m) hgens (E := RunFailed P s)
      (fun k c s' => Steps (BeeGeneration v.op P A.limit s.pop.id.length) k
          ⟨s.pop, s.evs, s.pop.f, List.replicate s.pop.id.length 0⟩ (hive c s') ∧
        (∀ t ∈ c.trial, t ≤ (s.pop.id.length + 1) * k) ∧
        ∃ new, BeeInv ((s.pop.id.length + 1) * (A.gens - 1) < A.limit) P s.pop.id.length s (2 * s.pop.id.length * k) c new s') ?_ fuel 0
      ⟨s.pop.x, s.pop.f, List.replicate s.pop.id.length 0⟩ s (by omega) (by omega) ?_
    · refine key.mono ?_ (fun _ _ h => h)
      rintro c s' ⟨hS, _, new, hI⟩
      exact ⟨hI.tr.inv, hI.tr.id, hI.box, ⟨_, hS, rfl, rfl⟩, new, hI.tr.evs, hI.tr.box, hI.tr.user, hI.cnt, hI.made, fun h => (hI.calm h).2⟩
    · rintro k c s' hk ⟨hS, hB, new, hI⟩
      refine (wpn_beeGen (g := k + 1) (m := m) hg hop hP hnobj hnc rfl h2 hI hB (fun h => ?_)).mono ?_ (fun _ _ h => h)
      · exact lt_of_le_of_lt (Nat.mul_le_mul_left _ (by omega)) h
      · rintro r s1 ⟨hr, hG, hB1, new1, hI1⟩
        refine ⟨hr, .snoc hS hG, fun t ht => ?_, new1, ?_⟩
        · rw [Nat.mul_succ]; exact hB1 t ht
        · rwa [Nat.mul_succ]
    · refine ⟨.refl _, fun t ht => ?_, [], tracked_refl hi, by simp, rfl, hbox, hi.wf.fs, fun f hf => ?_, by simp, ?_, fun _ => ⟨rfl, each_refl _ _⟩⟩
      · rw [List.eq_of_mem_replicate ht]; omega
      · rw [← hnf]; exact hi.wf.dimF f hf
      · intro i x0 f0 x f h1 h2 h3 h4
        rw [h1] at h3; rw [h2] at h4; cases h3; cases h4; exact Or.inl rfl


/-! ### Runs that do not end -/

/-- the sum of the weights is not a number or infinite -/
def Dead (a : Fl K) : Prop := a = .nan ∨ a = .pinf

/-- What is needed of the arithmetic: NaN and infinities behave as in IEEE arithmetic. -/
structure DeadOps (op : Fl.Ops K) : Prop where
  zero : op.zero = .fin 0
  sub : Dead (op.sub op.one .nan) ∧ Dead (op.sub op.one .ninf)
  add : ∀ a b, Dead a ∨ Dead b → Dead (op.add a b)
  div : ∀ (a d : Fl K) (r : K), Dead d → 0 ≤ r → Fl.lt (.fin r) (op.div a d) = false

omit [IsStrictOrderedRing K] in
theorem deadOps_exact : DeadOps (Fl.exact K) where
  zero := rfl
  sub := ⟨Or.inl rfl, Or.inr rfl⟩
  add a b h := by
    show Dead (Fl.add a b)
    rcases h with (rfl | rfl) | (rfl | rfl) <;> first | (cases a <;> simp [Dead, Fl.add]) | (cases b <;> simp [Dead, Fl.add])
  div a d r h hr := by
    show Fl.lt (.fin r) (Fl.div a d) = false
    rcases h with rfl | rfl <;> cases a <;> simp [Fl.div, Fl.lt, hr]

omit [IsStrictOrderedRing K] in
theorem deadOps_rounded (rnd : K → K) (h0 : rnd 0 = 0) : DeadOps (Fl.rounded K rnd) where
  zero := rfl
  sub := ⟨Or.inl rfl, Or.inr rfl⟩
  add a b h := by
    show Dead (Fl.post rnd (Fl.add a b))
    rcases h with (rfl | rfl) | (rfl | rfl) <;> first | (cases a <;> simp [Dead, Fl.add, Fl.post]) | (cases b <;> simp [Dead, Fl.add, Fl.post])
  div a d r h hr := by
    show Fl.lt (.fin r) (Fl.post rnd (Fl.div a d)) = false
    rcases h with rfl | rfl <;> cases a <;> simp [Fl.div, Fl.lt, hr, Fl.post, h0]

omit [IsStrictOrderedRing K] in
theorem dead_sum {op : Fl.Ops K} (hd : DeadOps op) : ∀ (l : List (Fl K)) (t : Fl K), (Dead t ∨ ∃ w ∈ l, Dead w) → Dead (l.foldl op.add t) := by
  intro l
  induction l with
  | nil => rintro t (h | ⟨w, h, _⟩); exacts [h, absurd h (by simp)]
  | cons a l ih =>
    rintro t (h | ⟨w, h, hw⟩)
    · exact ih _ (Or.inl (hd.add _ _ (Or.inl h)))
    · rcases List.mem_cons.mp h with rfl | h
      · exact ih _ (Or.inl (hd.add _ _ (Or.inr hw)))
      · exact ih _ (Or.inr ⟨w, h, hw⟩)

omit [IsStrictOrderedRing K] in
theorem move_book {op : Fl.Ops K} {P : AProb K} {i i0 : Nat} {a b : Hive K} (h : BeeMove op P i a b) {z : Fl K}
    (hz : z = .nan ∨ z = .ninf) (h0 : a.book[i0]? = some [z]) : b.book[i0]? = some [z] := by
  obtain ⟨y, f, fb, n, h1, _, _, _, ⟨hb, _, _, h5, _⟩ | ⟨_, _, h5, _⟩⟩ := h
  · by_cases e : i = i0
    · subst e
      rw [h0] at h1; cases h1
      obtain ⟨a', b', _, hb', hlt⟩ := hb
      simp only [List.getElem?_cons_zero, Option.some.injEq] at hb'
      subst hb'
      exfalso
      rcases hz with rfl | rfl <;> cases a' <;> simp [Fl.lt] at hlt
    · rw [h5, List.getElem?_set_ne e]; exact h0
  · rw [h5]; exact h0

omit [IsStrictOrderedRing K] in
theorem along_book {op : Fl.Ops K} {P : AProb K} {i0 : Nat} {z : Fl K} (hz : z = .nan ∨ z = .ninf) {l : List Nat} {a b : Hive K}
    (h : Along (BeeMove op P) l a b) (h0 : a.book[i0]? = some [z]) : b.book[i0]? = some [z] := by
  induction h with
  | nil => exact h0
  | snoc _ hm ih => exact move_book hm hz (ih h0)

/-- the onlookers wait for ever if no number is small enough -/
theorem wpn_beeLook_dead {v : Env K σ} {rep : K → Prop} (hg : v.g.Lawful rep) {P : AProb K} {NP : Nat} {w : List (Fl K)}
    (hw : w.length = NP) (hd : ∀ a ∈ w, ∀ r : K, 0 ≤ r → Fl.lt (.fin r) a = false) {E : Exn → St K σ → Prop} (m : Nat) :
    ∀ (t i : Nat) (c : BeeVars K) (s : St K σ), t < NP → i < NP →
      wpn True (beeLook v P NP w m t i c) (fun _ _ => False) E s := by
  induction m with
  | zero => intro t i c s _ _; exact wpn_nofuel trivial
  | succ m ih =>
    intro t i c s ht hi
    rw [beeLook, if_pos ht, wpn_bind, wpn_onRng]
    refine wpn_of_wp (Gen.wp_draw01 hg (fun r e h0 h1 => ?_))
    rw [wpn_bind, wpn_lift_get (by omega), if_neg (by rw [hd _ (List.getElem_mem _) r h0]; simp)]
    exact ih t _ c _ ht (Nat.mod_lt _ (by omega))

/-- C84 is false: `evolve` need not end. If the objective of one individual of the input is NaN or minus infinity, no
number drawn is smaller than any of the probabilities, for any engine, objective function, limit and number of
generations: the run never returns a population. It uses up any fuel, unless the objective function throws. -/
theorem C84_hang (v : Env K σ) (rep : K → Prop) (hg : v.g.Lawful rep) (hop : NoOverflow v.op) (hd : DeadOps v.op) (P : AProb K)
    (hP : FiniteBox P) (hnobj : P.info.nobj = 1) (hnc : P.info.nc = 0) (hst : P.info.stochastic = false) (A : Bee) (hA : 0 < A.limit)
    (hA' : 0 < A.gens) (s : St K σ) (hi : Inv P.info s.pop) (h2 : 2 ≤ s.pop.id.length)
    (hbox : ∀ x ∈ s.pop.x, InBox P.lb P.ub 0 x) (i0 : Nat) (z : Fl K) (hz : z = .nan ∨ z = .ninf) (h0 : s.pop.f[i0]? = some [z]) (m fuel : Nat) :
    wpn True (beeEvolve v P A m fuel) (fun _ _ => False) (RunFailed P s) s := by
  have hnf : P.info.nf = 1 := by simp only [Info.nf, Info.nc] at *; omega
  unfold beeEvolve
  rw [if_neg (by omega), if_neg (by omega), if_neg (by simp [hst]), wpn_bind, wpn_get', if_neg (by omega), if_neg (by omega), wpn_bind]
  cases fuel with
  | zero => exact wpn_nofuel trivial
  | succ fuel =>
    rw [genLoop, if_pos (by omega), wpn_bind]
    have hI : BeeInv False P s.pop.id.length s 0 ⟨s.pop.x, s.pop.f, List.replicate s.pop.id.length 0⟩ [] s := by
      refine ⟨tracked_refl hi, rfl, rfl, hbox, hi.wf.fs, fun f hf => by rw [← hnf]; exact hi.wf.dimF f hf, by simp, ?_, False.elim⟩
      intro i x0 f0 x f h1 h2 h3 h4
      rw [h1] at h3; rw [h2] at h4; cases h3; cases h4; exact Or.inl rfl
    unfold beeGen
    obtain ⟨mi, tm, e1, e2, _⟩ := beeMax_spec hI.trialL h2
    have htm : tm = 0 := List.eq_of_mem_replicate (List.mem_of_getElem? e2)
    subst htm
    rw [wpn_bind, e1, wpn_lift_ok, wpn_bind, Outcome.get_eq_ok_iff.mpr e2, wpn_lift_ok, wpn_bind]
    refine wpn_of_wp ((wp_beeEmployed hg hop hP hnobj hnc rfl h2 (limit := A.limit) hI
      (B := 0) (fun k hk => le_of_eq (List.eq_of_mem_replicate hk)) e2).mono ?_ (fun _ _ h => h))
    rintro c1 s1 ⟨hAl, _, new1, hI1⟩
    have hb := along_book hz hAl h0
    unfold beeScoutPhase
    rw [wpn_bind, if_neg (by omega), wpn_pure, wpn_bind]
    have hfs : ∀ (i : Nat) (a : Fl K), (c1.fit.map (fun f => f.headD (.fin 0)))[i]? = some a →
        ∃ f : List (Fl K), c1.fit[i]? = some f ∧ f[0]? = some a := by
      intro i a h
      rw [List.getElem?_map, Option.map_eq_some_iff] at h
      obtain ⟨f, h1, rfl⟩ := h
      refine ⟨f, h1, ?_⟩
      have := hI1.fit1 f (List.mem_of_getElem? h1)
      match f, this with
      | [a], _ => rfl
    rw [beeWeights_eq v.op (fs := c1.fit.map (fun f => f.headD (.fin 0))) (by rw [List.length_map]; exact hI1.fitL) hfs, wpn_lift_ok, wpn_bind]
    refine (wpn_beeLook_dead hg (NP := s.pop.id.length) ?_ ?_ m 0 0 c1 s1 (by omega) (by omega)).mono (fun _ _ h => h.elim) (fun _ _ h => h)
    · simp only [List.length_map]; exact hI1.fitL
    intro a ha r hr
    rw [List.map_map] at ha
    obtain ⟨f, hf, rfl⟩ := List.mem_map.mp ha
    refine hd.div _ _ r (dead_sum hd _ _ (Or.inr ⟨beeWeight v.op z, ?_, ?_⟩)) hr
    · refine List.mem_map.mpr ⟨z, List.mem_map.mpr ⟨[z], List.mem_of_getElem? hb, rfl⟩, rfl⟩
    · unfold beeWeight
      rw [hd.zero]
      rcases hz with rfl | rfl
      · rw [if_neg (by simp [Fl.ge, Fl.le, Fl.lt, Fl.eq])]; exact hd.sub.1
      · rw [if_neg (by simp [Fl.ge, Fl.le, Fl.lt, Fl.eq])]; exact hd.sub.2

/-! ### The probabilities -/

/-- the weight of a source with the objective `r` -/
def shareOf (r : K) : K := if 0 ≤ r then 1 / (1 + r) else 1 - r

theorem shareOf_pos (r : K) : 0 < shareOf r := by
  unfold shareOf
  split
  · rename_i h; exact one_div_pos.mpr (by linarith)
  · rename_i h; push Not at h; linarith

theorem shareOf_anti {r t : K} (h : r < t) : shareOf t < shareOf r := by
  unfold shareOf
  split
  · rename_i ht
    split
    · rename_i hr; exact one_div_lt_one_div_of_lt (by linarith) (by linarith)
    · rename_i hr
      push Not at hr
      have : 1 / (1 + t) ≤ 1 := by rw [div_le_one (by linarith)]; linarith
      linarith
  · rename_i ht
    push Not at ht
    rw [if_neg (by linarith)]; linarith

theorem beeWeight_fin (r : K) : beeWeight (Fl.exact K) (.fin r) = .fin (shareOf r) := by
  unfold beeWeight shareOf
  have e : Fl.ge (Fl.fin r) (Fl.exact K).zero = true ↔ 0 ≤ r := by
    show Fl.ge (Fl.fin r) (Fl.fin (0 : K)) = true ↔ _
    rw [Fl.ge, Fl.le_iff (by simp) (by simp), Fl.fin_le_fin]
  by_cases h : 0 ≤ r
  · rw [if_pos (e.mpr h), if_pos h]
    show Fl.div (Fl.fin 1) (Fl.fin (1 + r)) = _
    have : (1 + r) ≠ 0 := by linarith
    simp [Fl.div, this]
  · rw [if_neg (fun h' => h (e.mp h')), if_neg h]
    show Fl.fin (1 + -r) = _
    rw [sub_eq_add_neg]

omit [IsStrictOrderedRing K] in
theorem exact_sum (l : List K) : ∀ t : K, (l.map Fl.fin).foldl (Fl.exact K).add (Fl.fin t) = Fl.fin (t + l.sum) := by
  induction l with
  | nil => intro t; simp
  | cons a l ih =>
    intro t
    rw [List.map_cons, List.foldl_cons, show (Fl.exact K).add (Fl.fin t) (Fl.fin a) = Fl.fin (t + a) from rfl, ih, List.sum_cons, add_assoc]

omit [LinearOrder K] [IsStrictOrderedRing K] in
theorem sum_div (l : List K) (d : K) : (l.map (fun a => a / d)).sum = l.sum / d := by
  induction l with
  | nil => simp
  | cons a l ih => simp [ih, add_div]

/-- C84, the onlookers (exact arithmetic). For finite objectives the shares computed are positive numbers with sum one,
larger for smaller objectives. -/
theorem C84_shares (rs : List K) (hne : rs ≠ []) :
    ∃ ps : List K, beeWeights (Fl.exact K) (rs.map (fun r => [.fin r])) rs.length = .ok (ps.map Fl.fin) ∧ ps.length = rs.length ∧
      ps.sum = 1 ∧ (∀ p ∈ ps, 0 < p) ∧
      ∀ (i j : Nat) (ri rj p q : K), rs[i]? = some ri → rs[j]? = some rj → ps[i]? = some p → ps[j]? = some q → ri < rj → q < p := by
  have hpos : 0 < (rs.map shareOf).sum := by
    have : ∀ l : List K, l ≠ [] → 0 < (l.map shareOf).sum := by
      intro l
      induction l with
      | nil => intro h; exact absurd rfl h
      | cons a l ih =>
        intro _
        rw [List.map_cons, List.sum_cons]
        by_cases h : l = []
        · subst h; simpa using shareOf_pos a
        · exact add_pos (shareOf_pos a) (ih h)
    exact this rs hne
  refine ⟨rs.map (fun r => shareOf r / (rs.map shareOf).sum), ?_, by simp, ?_, ?_, ?_⟩
  · rw [beeWeights_eq (Fl.exact K) (fs := rs.map Fl.fin) (by simp)]
    · have e : (rs.map Fl.fin).map (beeWeight (Fl.exact K)) = (rs.map shareOf).map Fl.fin := by
        rw [List.map_map, List.map_map]
        exact List.map_congr_left (fun r _ => beeWeight_fin r)
      rw [e, show (Fl.exact K).zero = Fl.fin 0 from rfl, exact_sum, zero_add, List.map_map, List.map_map, List.map_map]
      refine congrArg Outcome.ok (List.map_congr_left (fun r _ => ?_))
      show Fl.div (Fl.fin _) (Fl.fin _) = _
      simp only [Fl.div, if_neg (ne_of_gt hpos)]
      rfl
    · intro i a h
      rw [List.getElem?_map, Option.map_eq_some_iff] at h
      obtain ⟨r, h1, rfl⟩ := h
      exact ⟨[.fin r], by simp [h1], rfl⟩
  · have := sum_div (rs.map shareOf) (rs.map shareOf).sum
    rw [List.map_map] at this
    exact this.trans (div_self (ne_of_gt hpos))
  · intro p hp
    obtain ⟨r, _, rfl⟩ := List.mem_map.mp hp
    exact div_pos (shareOf_pos r) hpos
  · intro i j ri rj p q h1 h2 h3 h4 hlt
    simp only [List.getElem?_map, h1, h2, Option.map_some, Option.some.injEq] at h3 h4
    rw [← h3, ← h4]
    exact div_lt_div_of_pos_right (shareOf_anti hlt) hpos

end

/-! ### The checks -/

/-- C84, the constructor: only the limit zero is refused. -/
theorem C84_ctor (gens limit : Nat) :
    (limit = 0 → beeCtor gens limit = .throws .invalidArgument) ∧ (0 < limit → beeCtor gens limit = .ok ⟨gens, limit⟩) :=
  ⟨fun h => if_pos h, fun h => if_neg (by omega)⟩

/-- C84, `evolve` throws for constraints, several objectives, a stochastic problem and fewer than two individuals, and
nothing has happened. -/
theorem C84_throws (v : Env K σ) (P : AProb K) (A : Bee) (m fuel : Nat) (s : St K σ)
    (h : P.info.nc ≠ 0 ∨ P.info.nf ≠ 1 ∨ P.info.stochastic = true ∨ s.pop.id.length < 2) :
    beeEvolve v P A m fuel s = (.throws .invalidArgument, s) := by
  unfold beeEvolve
  by_cases h1 : P.info.nc ≠ 0
  · rw [if_pos h1]; rfl
  rw [if_neg h1]
  by_cases h2 : P.info.nf ≠ 1
  · rw [if_pos h2]; rfl
  rw [if_neg h2]
  by_cases h3 : P.info.stochastic = true
  · rw [if_pos h3]; rfl
  rw [if_neg h3]
  have h4 : s.pop.id.length < 2 := by tauto
  show Run.bind Run.get _ s = _
  simp only [Run.bind, Run.get]
  rw [if_pos h4]; rfl

/-- C84, no generations: the population is returned. -/
theorem C84_nothing (v : Env K σ) (P : AProb K) (limit m fuel : Nat) (s : St K σ) (h1 : P.info.nc = 0) (h2 : P.info.nf = 1)
    (h3 : P.info.stochastic = false) (h4 : 2 ≤ s.pop.id.length) : beeEvolve v P ⟨0, limit⟩ m fuel s = (.ok (), s) := by
  unfold beeEvolve
  rw [if_neg (by omega), if_neg (by omega), if_neg (by simp [h3])]
  show Run.bind Run.get _ s = _
  simp only [Run.bind, Run.get]
  rw [if_neg (by omega)]
  rfl

/-! ### A better individual is overwritten -/

/-- two individuals; the fitness of `algDemo` is the square -/
def beeSt (e : List ℚ) : St ℚ (List ℚ) :=
  ⟨⟨[5, 6], [[.fin 3], [.fin 1]], [[.fin 9], [.fin 1]], [.fin 1], [.fin 1], [], fun n => n, []⟩, e, []⟩

theorem beeSt_inv (e : List ℚ) : Inv algDemo.info (beeSt e).pop where
  wf := ⟨rfl, rfl, by simp [beeSt, algDemo, P1], by simp [beeSt, algDemo, P1, Info.nf]⟩
  ch := Or.inr ⟨rfl, rfl⟩
  tol := rfl

theorem beeSt_box (e : List ℚ) : ∀ x ∈ (beeSt e).pop.x, InBox algDemo.lb algDemo.ub 0 x := by
  intro x hx
  refine deDemo_box x ?_
  simp only [beeSt, List.mem_cons, List.not_mem_nil, or_false] at hx
  rcases hx with rfl | rfl <;> simp [deDemoSt]

/-- C84, the claim that a candidate replaces only a worse individual is false. In the second generation the scout finds
the point 0 with the smallest possible objective 0, and it is in the population. The next candidate, 1 with the objective
1, is compared with the objective of the point the scout replaced, 9, and takes its place. -/
theorem C84_false :
    (beeEvolve algDemoEnv algDemo ⟨2, 1⟩ 5 3 (beeSt [0, 0, 1, 0, 0, 0, 0, 0, 0, 1])).1 = .ok () ∧
    (beeEvolve algDemoEnv algDemo ⟨2, 1⟩ 5 3 (beeSt [0, 0, 1, 0, 0, 0, 0, 0, 0, 1])).2.evs =
      [([.fin 5], .ok [.fin 25]), ([.fin 3], .ok [.fin 9]), ([.fin 5], .ok [.fin 25]), ([.fin 3], .ok [.fin 9]),
       ([.fin 3], .ok [.fin 9]), ([.fin 0], .ok [.fin 0]), ([.fin 1], .ok [.fin 1]), ([.fin 1], .ok [.fin 1])] ∧
    (beeEvolve algDemoEnv algDemo ⟨2, 1⟩ 5 3 (beeSt [0, 0, 1, 0, 0, 0, 0, 0, 0, 1])).2.pop.f = [[.fin 1], [.fin 1]] := by
  refine ⟨by decide +kernel, by decide +kernel, by decide +kernel⟩

/-! ### Non-triviality -/

example : wpn True (beeEvolve algDemoEnv algDemo ⟨3, 20⟩ 50 4) (fun _ s' => BeeDone (Fl.exact ℚ) algDemo ⟨3, 20⟩ deDemoSt s')
    (RunFailed algDemo deDemoSt) deDemoSt :=
  C84_evolve algDemoEnv _ demoGen_lawful noOverflow_exact algDemo algDemo_finiteBox rfl rfl rfl ⟨3, 20⟩ (by decide) (by decide)
    deDemoSt deDemo_inv (by decide) deDemo_box 50 4 (by decide)

/-- this run ends, with 30 evaluations -/
example : (beeEvolve algDemoEnv algDemo ⟨3, 20⟩ 50 4 deDemoSt).1 = .ok () ∧
    (beeEvolve algDemoEnv algDemo ⟨3, 20⟩ 50 4 deDemoSt).2.evs.length = 30 ∧
    (beeEvolve algDemoEnv algDemo ⟨3, 20⟩ 50 4 deDemoSt).2.pop.f ≠ deDemoSt.pop.f := by
  refine ⟨by decide +kernel, by decide +kernel, by decide +kernel⟩

/-- a population with an individual whose fitness is NaN -/
def beeNanSt : St ℚ (List ℚ) :=
  ⟨⟨[5, 6], [[.fin 3], [.fin 1]], [[.nan], [.fin 1]], [.fin 1], [.fin 1], [], fun n => n, []⟩, [1 / 2, 1 / 3], []⟩

example (m fuel : Nat) : wpn True (beeEvolve algDemoEnv algDemo ⟨3, 20⟩ m fuel) (fun _ _ => False) (RunFailed algDemo beeNanSt) beeNanSt :=
  C84_hang algDemoEnv _ demoGen_lawful noOverflow_exact deadOps_exact algDemo algDemo_finiteBox rfl rfl rfl ⟨3, 20⟩ (by decide) (by decide)
    beeNanSt ⟨⟨rfl, rfl, by decide +kernel, by decide +kernel⟩, Or.inr ⟨rfl, rfl⟩, rfl⟩ (by decide) (beeSt_box []) 0 .nan (Or.inl rfl) rfl m fuel

/-- both kinds of arithmetic -/
example : DeadOps (Fl.rounded ℚ (fun a => (⌊a * 8⌋ : ℚ) / 8)) := deadOps_rounded _ (by norm_num)

example : ∃ ps : List ℚ, beeWeights (Fl.exact ℚ) [[.fin 9], [.fin (-1)]] 2 = .ok (ps.map Fl.fin) ∧ ps = [1 / 21, 20 / 21] :=
  ⟨_, by decide +kernel, rfl⟩

example : beeEvolve algDemoEnv algDemo ⟨3, 20⟩ 5 5 { beeSt [] with pop := ⟨[5], [[.fin 3]], [[.fin 9]], [.fin 3], [.fin 9], [], fun n => n, []⟩ } =
    (.throws .invalidArgument, { beeSt [] with pop := ⟨[5], [[.fin 3]], [[.fin 9]], [.fin 3], [.fin 9], [], fun n => n, []⟩ }) :=
  C84_throws _ _ _ _ _ _ (Or.inr (Or.inr (Or.inr (by decide))))

end Verif.Props
