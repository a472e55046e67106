import Verif.Proof.De

/-!
# C64: differential evolution
-/

set_option autoImplicit false

namespace Verif.Props

open Verif Run Prob Pop Alg

variable {K σ : Type} [Field K] [LinearOrder K]

/-- The objective of `f` is not larger than that of `g`: C++ `f[0] <= g[0]`, so neither is NaN. -/
def NotAbove (f g : List (Fl K)) : Prop := ∃ a b : Fl K, f[0]? = some a ∧ g[0]? = some b ∧ Fl.le a b = true

/-- Every individual is the same as before, or a point evaluated since with its fitness, not larger than before. -/
def EachImproved (new : List (ECall K)) (p0 p : Pop.State K) : Prop :=
  Each (fun x0 f0 x f => (x, f) = (x0, f0) ∨ (x, Except.ok f) ∈ new ∧ NotAbove f f0) p0 p

theorem fl_le_iff {a b : Fl K} : Fl.le a b = true ↔ a ≠ .nan ∧ b ≠ .nan ∧ a ≤ b := by
  by_cases ha : a = .nan
  · subst ha; simp [Fl.le, Fl.lt, Fl.eq]
  · by_cases hb : b = .nan
    · subst hb; cases a <;> simp [Fl.le, Fl.lt, Fl.eq]
    · rw [Fl.le_iff ha hb]; simp [ha, hb]

theorem notAbove_trans {f g h : List (Fl K)} (h1 : NotAbove f g) (h2 : NotAbove g h) : NotAbove f h := by
  obtain ⟨a, b, ha, hb, hab⟩ := h1
  obtain ⟨b', c, hb', hc, hbc⟩ := h2
  rw [hb] at hb'; cases hb'
  rw [fl_le_iff] at hab hbc
  exact ⟨a, c, ha, hc, fl_le_iff.mpr ⟨hab.1, hbc.2.1, hab.2.2.trans hbc.2.2⟩⟩

theorem eachImproved_mono {new new' : List (ECall K)} (h : ∀ p ∈ new, p ∈ new') {p0 p : Pop.State K}
    (he : EachImproved new p0 p) : EachImproved new' p0 p := fun i x0 f0 x f h1 h2 h3 h4 =>
  (he i x0 f0 x f h1 h2 h3 h4).imp id (fun h' => ⟨h _ h'.1, h'.2⟩)

/-- one individual is overwritten by an evaluated point that is not worse -/
theorem eachImproved_set {new : List (ECall K)} {p0 p p' : Pop.State K} {P : Info} (hw : WellFormed P p)
    (he : EachImproved new p0 p) {i : Nat} {x f fi : List (Fl K)} (hfi : p.f[i]? = some fi) (hm : (x, Except.ok f) ∈ new)
    (hle : NotAbove f fi) (hx : p'.x = p.x.set i x) (hf : p'.f = p.f.set i f) : EachImproved new p0 p' := by
  intro j x0 f0 y g h1 h2 h3 h4
  rw [hx, List.getElem?_set] at h3
  rw [hf, List.getElem?_set] at h4
  by_cases e : i = j
  · subst e
    have hlt := (List.getElem?_eq_some_iff.mp hfi).1
    have hlt' : i < p.x.length := by rw [hw.xs, ← hw.fs]; exact hlt
    simp only [if_true, hlt, hlt', Option.some.injEq] at h3 h4
    subst h3; subst h4
    refine Or.inr ⟨hm, ?_⟩
    rcases he i x0 f0 _ fi h1 h2 (List.getElem?_eq_getElem hlt') hfi with h | ⟨_, h⟩
    · have : fi = f0 := congrArg Prod.snd h
      rw [← this]; exact hle
    · exact notAbove_trans hle h
  · rw [if_neg e] at h3 h4
    exact he j x0 f0 y g h1 h2 h3 h4

/-- invariant of the loops: `n` evaluations made -/
structure DeInv (P : AProb K) (NP : Nat) (s0 : St K σ) (n : Nat) (d : DVars K) (new : List (ECall K)) (s : St K σ) : Prop where
  tr : Tracked P s0 new s
  imp : EachImproved new s0.pop s.pop
  fit : d.fit = s.pop.f
  cnt : new.length = n
  xs : ∀ x ∈ s.pop.x, InBox P.lb P.ub 0 x
  old : ∀ x ∈ d.old, InBox P.lb P.ub 0 x
  oldL : d.old.length = NP
  nw : ∀ x ∈ d.new, InBox P.lb P.ub 0 x
  nwL : d.new.length = NP
  gbX : InBox P.lb P.ub 0 d.gbX
  gbI : InBox P.lb P.ub 0 d.gbIter
  gbF : d.gbF.length = 1

theorem box_set {lb ub : List (Fl K)} {xs : List (List (Fl K))} {i : Nat} {x : List (Fl K)}
    (h : ∀ y ∈ xs, InBox lb ub 0 y) (hx : InBox lb ub 0 x) : ∀ y ∈ xs.set i x, InBox lb ub 0 y := by
  intro y hy
  rcases List.mem_or_eq_of_mem_set hy with hy | rfl
  · exact h y hy
  · exact hx

section
variable [IsStrictOrderedRing K]

theorem de_individual {v : Env K σ} {rep : K → Prop} (hg : v.g.Lawful rep) (hop : NoOverflow v.op) {P : AProb K}
    (hP : FiniteBox P) (hnobj : P.info.nobj = 1) (hnc : P.info.nc = 0) {A : De K} {F : K} (hF : A.F = .fin F) {s0 : St K σ} {NP : Nat}
    (hNP : s0.pop.id.length = NP) (h5 : 5 ≤ NP) {n : Nat} {d : DVars K} {new : List (ECall K)} {s : St K σ}
    (hi : DeInv P NP s0 n d new s) {i : Nat} (hiN : i < NP) :
    wp (deIndividual v P A NP d i) (fun d' s' => ∃ new', DeInv P NP s0 (n + 1) d' new' s') (RunFailed P s0) s := by
  have hnf : P.info.nf = 1 := by simp only [Info.nf, Info.nc] at *; omega
  have hnx0 : 0 < P.info.nx := by rw [hP.nx]; exact List.length_pos_iff.mpr hP.bounds.nonempty
  unfold deIndividual
  rw [wp_bind, wp_onRng]
  refine wp_deCandidate hg hop hP hF hi.gbI hi.oldL hi.old h5 hiN (fun y e hy => ?_)
  rw [wp_bind]
  refine wp_eval_tracked hP.nx (tracked_rng hi.tr e) hy ?_ (fun _ _ h => h)
  intro f s1 hfl hpop _ ht
  rw [hnf] at hfl
  have hid : s1.pop.id.length = NP := by rw [ht.id, hNP]
  have hfn : d.fit.length = NP := by rw [hi.fit, hi.tr.inv.wf.fs, hi.tr.id, hNP]
  have hfi : (d.fit[i]'(by omega)).length = 1 := by
    rw [← hnf]; refine hi.tr.inv.wf.dimF _ ?_
    rw [← hi.fit]; exact List.getElem_mem _
  rw [wp_bind, wp_lift_get (by omega), wp_bind, wp_lift_get (by omega), wp_bind, wp_lift_get (by omega)]
  have hmono : ∀ p ∈ new, p ∈ new ++ [(y, Except.ok f)] := fun p hp => List.mem_append_left _ hp
  have hbase : EachImproved (new ++ [(y, .ok f)]) s0.pop s1.pop := by rw [hpop]; exact eachImproved_mono hmono hi.imp
  have hol := hi.oldL
  have hnl := hi.nwL
  split
  · rename_i hle
    rw [wp_bind, wp_lift_set (by omega), wp_bind, wp_lift_set (by omega), wp_bind]
    refine wp_setXF_tracked hnx0 (by omega) ht (by omega) (by rw [hP.nx]; exact hy.1) (by rw [hnf]; exact hfl) ?_ (fun _ _ h => h)
    intro s2 ht2 _ hx2 hf2 _
    rw [wp_bind, wp_lift_get (by rw [hi.gbF]; omega)]
    have hfi' : s1.pop.f[i]? = some (d.fit[i]'(by omega)) := by
      rw [hpop]; show s.pop.f[i]? = _
      rw [← hi.fit]; exact List.getElem?_eq_getElem _
    have himp : EachImproved (new ++ [(y, .ok f)]) s0.pop s2.pop :=
      eachImproved_set ht.inv.wf hbase hfi' (by simp)
        ⟨_, _, List.getElem?_eq_getElem (by omega), List.getElem?_eq_getElem (by omega), hle⟩ hx2 hf2
    have hxs : ∀ x ∈ s2.pop.x, InBox P.lb P.ub 0 x := by
      rw [hx2, hpop]; exact box_set hi.xs hy
    have hfit : d.fit.set i f = s2.pop.f := by rw [hf2, hpop]; show _ = s.pop.f.set i f; rw [hi.fit]
    split
    · exact ⟨_, ht2, himp, hfit, by simp [hi.cnt], hxs, hi.old, hi.oldL, box_set hi.nw hy, by simpa using hi.nwL, hy, hi.gbI, hfl⟩
    · exact ⟨_, ht2, himp, hfit, by simp [hi.cnt], hxs, hi.old, hi.oldL, box_set hi.nw hy, by simpa using hi.nwL, hi.gbX, hi.gbI, hi.gbF⟩
  · rw [wp_bind, wp_lift_get (by omega), wp_bind, wp_lift_set (by omega), wp_pure]
    exact ⟨_, ht, hbase, by rw [hpop]; exact hi.fit, by simp [hi.cnt], by rw [hpop]; exact hi.xs, hi.old, hi.oldL,
      box_set hi.nw (hi.old _ (List.getElem_mem _)), by simpa using hi.nwL, hi.gbX, hi.gbI, hi.gbF⟩

/-- What `de::evolve` has done to the population: same individuals (IDs), each one the same or improved, `k`
generations of one evaluation per individual, all inside the bounds. -/
structure Evolved (P : AProb K) (gens : Nat) (s s' : St K σ) : Prop where
  inv : Inv P.info s'.pop
  id : s'.pop.id = s.pop.id
  work : ∃ new, s'.evs = s.evs ++ new ∧ (∀ p ∈ new, InBox P.lb P.ub 0 p.1) ∧ (∀ p ∈ new, ∃ h, p.2 = P.fit h p.1) ∧
    EachImproved new s.pop s'.pop ∧
    ∃ k, new.length = k * s.pop.id.length ∧ k ≤ gens ∧ (0 < gens → 0 < k)
  box : ∀ x ∈ s'.pop.x, InBox P.lb P.ub 0 x

/-- C64. For every population of at least five individuals inside the bounds of a deterministic single-objective
unconstrained problem with finite bounds, every fitness function (NaN and exceptions included), engine, variant and
tolerances, in arithmetic without overflow: `evolve` ends; the population has the same IDs, every individual is
unchanged or was replaced by an evaluated point whose fitness is not larger, and is inside the bounds. If the user's
function throws, so does `evolve`. `F` must not be NaN (see `C64_nan`) and the number of generations not the largest
`unsigned`. -/
theorem C64_evolve (v : Env K σ) (rep : K → Prop) (hg : v.g.Lawful rep) (hop : NoOverflow v.op) (P : AProb K)
    (hP : FiniteBox P) (hnobj : P.info.nobj = 1) (hnc : P.info.nc = 0) (hst : P.info.stochastic = false)
    (gens variant : Nat) (F : K) (CR ftol xtol : Fl K) (A : De K) (hA : deCtor gens (.fin F) CR variant ftol xtol = .ok A)
    (hgens : gens + 1 < 2 ^ 32) (s : St K σ) (hi : Inv P.info s.pop) (h5 : 5 ≤ s.pop.id.length)
    (hsz : s.pop.id.length ≤ 2 ^ 63) (hbox : ∀ x ∈ s.pop.x, InBox P.lb P.ub 0 x) (fuel : Nat) (hfuel : gens < fuel) :
    wp (deEvolve v P A fuel) (fun _ s' => Evolved P gens s s') (RunFailed P s) s := by
  have hA' : A = ⟨gens, .fin F, CR, variant, ftol, xtol⟩ := by
    unfold deCtor at hA
    split at hA
    · cases hA
    · split at hA <;> cases hA
      rfl
  subst hA'
  have hnf : P.info.nf = 1 := by simp only [Info.nf, Info.nc] at *; omega
  have hfl := hi.wf.fs
  have hxl := hi.wf.xs
  unfold deEvolve
  rw [if_neg (by omega), if_neg (by omega), if_neg (by simp [hst])]
  split
  · rename_i h0
    have h0 : gens = 0 := h0
    refine ⟨hi, rfl, ⟨[], by simp, by simp, by simp, ?_, 0, by simp, by omega, by omega⟩, hbox⟩
    intro i x0 f0 x f h1 h2 h3 h4
    rw [h1] at h3; rw [h2] at h4; cases h3; cases h4; exact Or.inl rfl
  · rw [wp_bind, wp_get', if_neg (by omega)]
    obtain ⟨⟨bi, hb1, hb2⟩, _⟩ := idx_lt (srt := v.srt) (sq := v.sq) hnobj hnc
      (fs := s.pop.f) (fun h => by rw [h] at hfl; simp at hfl; omega) (by omega) s.pop.tol
    rw [wp_bind, hb1, wp_lift_ok, wp_bind, wp_lift_get (by omega), wp_bind, wp_lift_get hb2, wp_bind]
    have hgb := hbox _ (List.getElem_mem (l := s.pop.x) (n := bi) (by omega))
    refine (wp_genLoop (E := RunFailed P s) hgens (fun k d s' => ∃ new, DeInv P s.pop.id.length s (k * s.pop.id.length) d new s') ?_ fuel 0 _ s (by omega) (by simpa using hfuel) ?_).mono ?_ (fun _ _ h => h)
    · rintro k d s1 hk ⟨new, h1⟩
      unfold deGen
      rw [wp_bind]
      refine (wp_range (fun j (d : DVars K) s' => ∃ new, DeInv P s.pop.id.length s (k * s.pop.id.length + j) d new s')
        s.pop.id.length d s1 ⟨new, h1⟩ ?_).mono ?_ (fun _ _ h => h)
      · rintro i d s2 hi2 ⟨new2, h2⟩
        exact de_individual hg hop hP hnobj hnc rfl rfl h5 h2 hi2
      · rintro d2 s2 ⟨new2, h2⟩
        have hid := h2.tr.id
        obtain ⟨b, hb⟩ := flatEnough_ok (v := v) hnobj hnc h2.tr.inv.wf (by intro h; rw [h] at hid; rw [← hid] at h5; simp at h5)
          (by rw [hid]; exact hsz) xtol ftol
        rw [wp_bind, wp_get', wp_bind, hb, wp_lift_ok, wp_pure]
        exact ⟨new2, h2.tr, h2.imp, h2.fit, by rw [h2.cnt]; ring, h2.xs, h2.nw, h2.nwL, h2.old, h2.oldL, h2.gbX, h2.gbX, h2.gbF⟩
    · refine ⟨[], tracked_refl hi, ?_, rfl, by simp, hbox, hbox, hxl, hbox, hxl, hgb, hgb, ?_⟩
      · intro i x0 f0 x f h1 h2 h3 h4
        rw [h1] at h3; rw [h2] at h4; cases h3; cases h4; exact Or.inl rfl
      · rw [← hnf]; exact hi.wf.dimF _ (List.getElem_mem hb2)
    · rintro d s' ⟨k, hk, _, hk2, new, h⟩
      rw [wp_pure]
      exact ⟨h.tr.inv, h.tr.id, ⟨new, h.tr.evs, h.tr.box, h.tr.user, h.imp, k, h.cnt, hk, hk2⟩, h.xs⟩

end

/-- C64 (stored fitness). For a fitness function of the decision vector alone: if every stored fitness was right before,
it is right after. -/
theorem C64_fitness {P : AProb K} {gens : Nat} {s s' : St K σ} (h : Evolved P gens s s') (φ : List (Fl K) → User (List (Fl K)))
    (hφ : ∀ hist x, P.fit hist x = φ x)
    (hs : ∀ (i : Nat) (x f : List (Fl K)), s.pop.x[i]? = some x → s.pop.f[i]? = some f → φ x = .ok f)
    (hw : WellFormed P.info s.pop) :
    ∀ (i : Nat) (x f : List (Fl K)), s'.pop.x[i]? = some x → s'.pop.f[i]? = some f → φ x = .ok f := by
  intro i x f hx hf
  obtain ⟨new, _, _, hu, himp, _⟩ := h.work
  have hlt := (List.getElem?_eq_some_iff.mp hx).1
  have h1 : i < s.pop.x.length := by rw [hw.xs, ← h.id, ← h.inv.wf.xs]; exact hlt
  have h2 : i < s.pop.f.length := by rw [hw.fs, ← hw.xs]; exact h1
  rcases himp i _ _ x f (List.getElem?_eq_getElem h1) (List.getElem?_eq_getElem h2) hx hf with h' | ⟨h', _⟩
  · cases h'; exact hs i _ _ (List.getElem?_eq_getElem h1) (List.getElem?_eq_getElem h2)
  · obtain ⟨hist, h3⟩ := hu _ h'
    rw [hφ] at h3; exact h3.symm

/-- C64 (errors). Constraints, several objectives, a stochastic problem or fewer than five individuals:
`std::invalid_argument`, before any evaluation. -/
theorem C64_throws (v : Env K σ) (P : AProb K) (A : De K) (fuel : Nat) (s : St K σ)
    (h : P.info.nc ≠ 0 ∨ P.info.nf ≠ 1 ∨ P.info.stochastic = true ∨ (0 < A.gens ∧ s.pop.id.length < 5)) :
    deEvolve v P A fuel s = (.throws .invalidArgument, s) := by
  unfold deEvolve
  split
  · rfl
  · split
    · rfl
    · split
      · rfl
      · rename_i h1 h2 h3
        obtain ⟨h4, h5⟩ : 0 < A.gens ∧ s.pop.id.length < 5 := by
          rcases h with h | h | h | h
          · exact absurd h h1
          · exact absurd h h2
          · exact absurd h h3
          · exact h
        rw [if_neg (by omega)]
        show Run.bind _ _ s = _
        simp only [Run.bind, Run.get, h5, if_true]
        rfl

/-- C64 (constructor). The variant is between 1 and 10; `F` and `CR` are in [0, 1] or NaN. -/
theorem C64_ctor (gens variant : Nat) (F CR ftol xtol : Fl K) :
    (deCtor gens F CR variant ftol xtol = .ok ⟨gens, F, CR, variant, ftol, xtol⟩ ↔
      (1 ≤ variant ∧ variant ≤ 10) ∧ (∀ a ∈ [F, CR], a = .nan ∨ .fin 0 ≤ a ∧ a ≤ .fin 1)) ∧
    (deCtor gens F CR variant ftol xtol = .ok ⟨gens, F, CR, variant, ftol, xtol⟩ ∨
      deCtor gens F CR variant ftol xtol = .throws .invalidArgument) := by
  have key : ∀ a : Fl K, (Fl.lt a (.fin 0) = false ∧ Fl.gt a (.fin 1) = false) ↔ (a = .nan ∨ .fin 0 ≤ a ∧ a ≤ .fin 1) := by
    intro a
    cases a <;> simp [Fl.lt, Fl.gt, Fl.le_def, Fl.cls]
  unfold deCtor
  constructor
  · by_cases hv : variant < 1 ∨ variant > 10
    · rw [if_pos hv]
      constructor
      · intro h; cases h
      · rintro ⟨⟨h1, h2⟩, _⟩; omega
    · rw [if_neg hv]
      have h1 := key F
      have h2 := key CR
      simp only [List.mem_cons, List.not_mem_nil, or_false, forall_eq_or_imp, forall_eq]
      rw [← h1, ← h2]
      cases Fl.lt CR (.fin 0) <;> cases Fl.lt F (.fin 0) <;> cases Fl.gt CR (.fin 1) <;> cases Fl.gt F (.fin 1) <;>
        simp <;> omega
  · split
    · exact Or.inr rfl
    · split
      · exact Or.inr rfl
      · exact Or.inl rfl

/-! ### The arithmetic, and non-triviality -/

theorem noOverflow_exact : NoOverflow (Fl.exact K) where
  add a b := ⟨a + b, rfl⟩
  sub a b := ⟨a + -b, rfl⟩
  mul a b := ⟨a * b, rfl⟩

theorem noOverflow_rounded (rnd : K → K) : NoOverflow (Fl.rounded K rnd) where
  add a b := ⟨rnd (a + b), rfl⟩
  sub a b := ⟨rnd (a + -b), rfl⟩
  mul a b := ⟨rnd (a * b), rfl⟩

theorem algDemo_finiteBox : FiniteBox algDemo where
  bounds := ⟨by simp [algDemo], rfl, by
    intro i l u h1 h2
    match i with
    | 0 => cases h1; cases h2; simp
    | i + 1 => simp [algDemo] at h1, by simp [algDemo], by
    intro i a h h1
    match i with
    | 0 => simp [algDemo] at h
    | i + 1 => simp [algDemo] at h1, by
    intro i a h h1
    match i with
    | 0 => simp [algDemo] at h
    | i + 1 => simp [algDemo] at h1⟩
  nx := rfl
  finL := by intro w hw; simp [algDemo] at hw; exact ⟨0, hw⟩
  finU := by intro w hw; simp [algDemo] at hw; exact ⟨10, hw⟩

/-- five individuals -/
def deDemoSt : St ℚ (List ℚ) :=
  ⟨⟨[5, 6, 7, 8, 9], [[.fin 3], [.fin 1], [.fin 2], [.fin 5], [.fin 4]], [[.fin 9], [.fin 1], [.fin 4], [.fin 25], [.fin 16]],
    [.fin 1], [.fin 1], [], fun n => n, []⟩, [1 / 3, 2 / 3, 1 / 2, 1 / 5, 3 / 4, 1, 1 / 4], []⟩

theorem deDemo_inv : Inv algDemo.info deDemoSt.pop where
  wf := ⟨rfl, rfl, by decide +kernel, by decide +kernel⟩
  ch := Or.inr ⟨rfl, rfl⟩
  tol := rfl

theorem deDemo_box : ∀ x ∈ deDemoSt.pop.x, InBox algDemo.lb algDemo.ub 0 x := by
  intro x hx
  have : ∃ a : ℚ, x = [.fin a] ∧ 0 ≤ a ∧ a ≤ 10 := by
    simp only [deDemoSt, List.mem_cons, List.not_mem_nil, or_false] at hx
    rcases hx with rfl | rfl | rfl | rfl | rfl <;> exact ⟨_, rfl, by norm_num, by norm_num⟩
  obtain ⟨a, rfl, h1, h2⟩ := this
  refine inBox0 rfl ?_
  intro i l u w hl hu hw
  match i with
  | 0 => cases hl; cases hu; cases hw; simpa using ⟨h1, h2⟩
  | i + 1 => simp [algDemo] at hl

example : wp (deEvolve algDemoEnv algDemo ⟨3, .fin (4 / 5), .fin (9 / 10), 2, .fin 0, .fin 0⟩ 4)
    (fun _ s' => Evolved algDemo 3 deDemoSt s') (RunFailed algDemo deDemoSt) deDemoSt :=
  C64_evolve algDemoEnv _ demoGen_lawful noOverflow_exact algDemo algDemo_finiteBox rfl rfl rfl 3 2 (4 / 5) (.fin (9 / 10)) (.fin 0)
    (.fin 0) _ (by decide +kernel) (by norm_num) deDemoSt deDemo_inv (by decide) (by decide) deDemo_box 4 (by norm_num)

example : (deEvolve algDemoEnv algDemo ⟨3, .fin (4 / 5), .fin (9 / 10), 2, .fin 0, .fin 0⟩ 4 deDemoSt).2.pop.f ≠ deDemoSt.pop.f ∧
    (deEvolve algDemoEnv algDemo ⟨3, .fin (4 / 5), .fin (9 / 10), 2, .fin 0, .fin 0⟩ 4 deDemoSt).2.evs.length = 15 := by
  decide +kernel

/-- C64 (NaN). The constructor accepts `F = NaN`, and then points outside the bounds (NaN) are evaluated. -/
theorem C64_nan : ∃ (A : De ℚ) (r : User (List (Fl ℚ))), deCtor 1 Fl.nan (.fin (9 / 10)) 2 (.fin 0) (.fin 0) = .ok A ∧
    (deEvolve algDemoEnv algDemo A 2 deDemoSt).2.evs[0]? = some ([Fl.nan], r) ∧
    ¬ InBox algDemo.lb algDemo.ub 0 [Fl.nan] := by
  refine ⟨⟨1, .nan, .fin (9 / 10), 2, .fin 0, .fin 0⟩, .ok [.nan], by decide +kernel, by decide +kernel, ?_⟩
  rintro ⟨_, h⟩
  have := (h 0 (.fin 0) (.fin 10) .nan rfl rfl rfl).2.1
  simp [Fl.le_def, Fl.cls] at this

/-! ### Crossover -/

/-- The candidate `y` obtained from `tmp` takes at least one component from the mutation, and the others from `tmp`. -/
def Crossed (gene : List (Fl K) → Nat → Outcome (Fl K)) (dim : Nat) (tmp y : List (Fl K)) : Prop :=
  y.length = dim ∧ (∃ (i : Nat) (w : Fl K), i < dim ∧ y[i]? = some w ∧ gene tmp i = .ok w) ∧
    ∀ i : Nat, i < dim → y[i]? = tmp[i]? ∨ ∃ w, y[i]? = some w ∧ gene tmp i = .ok w

/-- the mutation formula for component `n` reads only component `n` of the candidate -/
def LocalGene (gene : List (Fl K) → Nat → Outcome (Fl K)) : Prop := ∀ (a b : List (Fl K)) (n : Nat), a[n]? = b[n]? → gene a n = gene b n

theorem mod_ne {dim n i L : Nat} (hi : i < L) (hL : L < dim) : (n + i) % dim ≠ (n + L) % dim := by
  intro h
  have h1 := Nat.ModEq.add_left_cancel' n (show n + i ≡ n + L [MOD dim] from h)
  have h2 : i % dim = L % dim := h1
  rw [Nat.mod_eq_of_lt (by omega), Nat.mod_eq_of_lt hL] at h2
  omega

theorem wp_expCrossed {g : Gen K σ} {CR : Fl K} {dim : Nat} {gene : List (Fl K) → Nat → Outcome (Fl K)} (hl : LocalGene gene)
    {tmp : List (Fl K)} (hgene : ∀ n < dim, ∃ w, gene tmp n = .ok w) (n : Nat) {E : Exn → σ → Prop} :
    ∀ (k L : Nat) (y : List (Fl K)) (s : σ), 0 < k → L + k = dim → y.length = dim → tmp.length = dim →
      (∀ i < dim, y[i]? = tmp[i]? ∨ ∃ w, y[i]? = some w ∧ gene tmp i = .ok w) →
      (∀ i, L ≤ i → i < dim → y[(n + i) % dim]? = tmp[(n + i) % dim]?) →
      wp (expCross g CR dim gene k y ((n + L) % dim)) (fun y _ => Crossed gene dim tmp y) E s := by
  intro k
  induction k with
  | zero => intro _ _ _ h; omega
  | succ k ih =>
    intro L y s _ hk hy ht h1 h2
    have hn : (n + L) % dim < dim := Nat.mod_lt _ (by omega)
    obtain ⟨w, hw⟩ := hgene _ hn
    have e : gene y ((n + L) % dim) = .ok w := by rw [hl y tmp _ (h2 L (le_refl _) (by omega))]; exact hw
    have h3 : ∀ i < dim, (y.set ((n + L) % dim) w)[i]? = tmp[i]? ∨ ∃ w', (y.set ((n + L) % dim) w)[i]? = some w' ∧ gene tmp i = .ok w' := by
      intro i hi
      rw [List.getElem?_set]
      split
      · rename_i h
        subst h
        rw [if_pos (by omega)]
        exact Or.inr ⟨w, rfl, hw⟩
      · exact h1 i hi
    rw [expCross, wp_bind, e, wp_lift_ok, wp_bind, wp_lift_set (by omega), wp_bind]
    refine wp_draw01' (fun u s' => ?_)
    split
    · rename_i h
      have hk0 : 0 < k := by
        rw [Bool.and_eq_true, decide_eq_true_eq] at h; exact h.2
      have := ih (L + 1) (y.set ((n + L) % dim) w) s' hk0 (by omega) (by simpa using hy) ht h3 ?_
      · rwa [show (n + (L + 1)) % dim = ((n + L) % dim + 1) % dim by rw [Nat.mod_add_mod]; rfl] at this
      · intro i hi hid
        rw [List.getElem?_set_ne (mod_ne (by omega : L < i) hid)]
        exact h2 i (by omega) hid
    · refine ⟨by simpa using hy, ⟨(n + L) % dim, w, hn, ?_, hw⟩, h3⟩
      rw [List.getElem?_set_self (by omega)]

theorem wp_binCrossed {g : Gen K σ} {CR : Fl K} {dim : Nat} {gene : List (Fl K) → Nat → Outcome (Fl K)} (hl : LocalGene gene)
    {tmp : List (Fl K)} (hgene : ∀ n < dim, ∃ w, gene tmp n = .ok w) (hd : 0 < dim) (ht : tmp.length = dim) (n : Nat) (hn : n < dim)
    {E : Exn → σ → Prop} (s : σ) : wp (binCross g CR dim gene tmp n) (fun y _ => Crossed gene dim tmp y) E s := by
  unfold binCross
  rw [wp_bind]
  refine (wp_range (fun L (b : List (Fl K) × Nat) _ => b.2 = (n + L) % dim ∧ b.1.length = dim ∧
    (∀ i < dim, b.1[i]? = tmp[i]? ∨ ∃ w, b.1[i]? = some w ∧ gene tmp i = .ok w) ∧
    (∀ i, L ≤ i → i < dim → b.1[(n + i) % dim]? = tmp[(n + i) % dim]?) ∧
    (L = dim → ∃ (i : Nat) (w : Fl K), i < dim ∧ b.1[i]? = some w ∧ gene tmp i = .ok w)) dim (tmp, n) s
    ⟨(Nat.mod_eq_of_lt hn).symm, ht, fun _ _ => Or.inl rfl, fun _ _ _ => rfl, fun h => absurd h (by omega)⟩ ?_).mono
    (fun b s' h => ⟨h.2.1, h.2.2.2.2 rfl, h.2.2.1⟩) (fun _ _ h => h)
  rintro L ⟨y, m⟩ s hL ⟨hm, hy, h1, h2, _⟩
  simp only at hm hy h1 h2
  subst hm
  have hm : (n + L) % dim < dim := Nat.mod_lt _ hd
  have step : ((n + L) % dim + 1) % dim = (n + (L + 1)) % dim := by rw [Nat.mod_add_mod]; rfl
  unfold binStep
  rw [wp_bind]
  refine wp_draw01' (fun u s' => ?_)
  split
  · obtain ⟨w, hw⟩ := hgene _ hm
    have e : gene y ((n + L) % dim) = .ok w := by rw [hl y tmp _ (h2 L (le_refl _) hL)]; exact hw
    simp only
    rw [wp_bind, e, wp_lift_ok, wp_bind, wp_lift_set (by omega), wp_pure]
    refine ⟨step, by simpa using hy, ?_, ?_, fun _ => ⟨_, w, hm, by simp only [List.getElem?_set_self (show (n + L) % dim < y.length by omega)], hw⟩⟩
    · intro i hi
      simp only [List.getElem?_set]
      split
      · rename_i h
        subst h
        rw [if_pos (by omega)]
        exact Or.inr ⟨w, rfl, hw⟩
      · exact h1 i hi
    · intro i hi hid
      simp only
      rw [List.getElem?_set_ne (mod_ne (by omega : L < i) hid)]
      exact h2 i (by omega) hid
  · rename_i h
    refine ⟨step, hy, h1, fun i hi => h2 i (by omega), fun h' => ?_⟩
    simp only [Bool.or_eq_true, decide_eq_true_eq, not_or] at h
    exact absurd h' h.2

theorem deGene_local (op : Fl.Ops K) (F : Fl K) (variant : Nat) (gb : List (Fl K)) (po : List (List (Fl K))) (r : List Nat) :
    LocalGene (deGene op F variant gb po r) := by
  intro a b n h
  unfold deGene
  simp only [Outcome.get, h]

/-- C64 (crossover). Whatever is drawn and whatever `CR` is, the candidate takes at least one component from the mutation
formula of the variant and every other component either from it or from the individual. -/
theorem C64_crossover (g : Gen K σ) (op : Fl.Ops K) (A : De K) (dim : Nat) (gb : List (Fl K)) (po : List (List (Fl K)))
    (r : List Nat) (tmp : List (Fl K)) (n : Nat) (hn : n < dim) (ht : tmp.length = dim)
    (hgene : ∀ n < dim, ∃ w, deGene op A.F A.variant gb po r tmp n = .ok w) (E : Exn → σ → Prop) (s : σ) :
    wp (deCross g op A dim gb po r tmp n) (fun y _ => Crossed (deGene op A.F A.variant gb po r) dim tmp y) E s := by
  unfold deCross
  split
  · have := wp_expCrossed (g := g) (CR := A.CR) (E := E) (deGene_local op A.F A.variant gb po r) hgene n dim 0 tmp s (by omega) (by omega)
      ht ht (fun _ _ => Or.inl rfl) (fun _ _ _ => rfl)
    rwa [Nat.add_zero, Nat.mod_eq_of_lt hn] at this
  · exact wp_binCrossed (deGene_local op A.F A.variant gb po r) hgene (by omega) ht n hn s

/-- the hypothesis is met: two variables, five donors -/
example (i : Nat) (hi : i < 2) : ∃ w, deGene (Fl.exact ℚ) (.fin (1 / 2)) 7 [.fin 1, .fin 2]
    [[.fin 1, .fin 2], [.fin 3, .fin 4], [.fin 5, .fin 6], [.fin 7, .fin 8], [.fin 9, .fin 10]] [0, 1, 2, 3, 4] [.fin 0, .fin 0] i = .ok w := by
  have : i = 0 ∨ i = 1 := by omega
  rcases this with rfl | rfl <;> exact ⟨_, rfl⟩

end Verif.Props
