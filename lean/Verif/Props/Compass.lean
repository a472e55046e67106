import Verif.Proof.Compass

/-!
# C65: compass search
-/

set_option autoImplicit false

namespace Verif.Props

open Verif Run Prob Pop Alg

variable {K σ : Type} [Field K] [LinearOrder K]

/-- What the constructor of `compass_search` must accept according to the documentation, except that `stop_range` need
not be positive. -/
def CompassArgs (start stop red : Fl K) : Prop :=
  ∃ a r : K, start = .fin a ∧ 0 < a ∧ a ≤ 1 ∧ stop ≠ .nan ∧ stop < .fin a ∧ red = .fin r ∧ 0 < r ∧ r < 1

variable [IsStrictOrderedRing K]

theorem compassCtor_ok {n : Nat} {start stop red : Fl K} {A : Compass K}
    (h : compassCtor (.fin 1) (.fin 0) n start stop red = .ok A) :
    A = ⟨n, start, stop, red, .best, .best⟩ ∧ CompassArgs start stop red := by
  unfold compassCtor at h
  split at h
  · cases h
  rename_i h1
  split at h
  · cases h
  rename_i h2
  split at h
  · cases h
  rename_i h3
  refine ⟨by cases h; rfl, ?_⟩
  simp only [Bool.or_eq_true, not_or, Fl.gt, Fl.ge] at h1 h2 h3
  obtain ⟨⟨a1, a2⟩, a3⟩ := h1
  obtain ⟨⟨b1, b2⟩, b3⟩ := h2
  obtain ⟨⟨c1, c2⟩, c3⟩ := h3
  cases start with
  | nan => simp [Fl.isNan] at a3
  | ninf => simp [Fl.le, Fl.lt] at a2
  | pinf => simp [Fl.lt] at a1
  | fin a =>
    cases red with
    | nan => simp [Fl.isNan] at c3
    | ninf => simp [Fl.le, Fl.lt] at c2
    | pinf => simp [Fl.le, Fl.lt] at c1
    | fin r =>
      simp only [Fl.le, Fl.lt, Fl.eq, Bool.or_eq_true, decide_eq_true_eq, not_or, not_lt] at a1 a2 c1 c2
      refine ⟨a, r, rfl, lt_of_le_of_ne a2.1 (Ne.symm a2.2), a1, ?_, ?_, rfl, lt_of_le_of_ne c2.1 (Ne.symm c2.2),
        lt_of_le_of_ne c1.1 (fun e => c1.2 e.symm)⟩
      · intro e; subst e; simp [Fl.isNan] at b3
      · cases stop with
        | nan => simp [Fl.isNan] at b3
        | ninf => simp [Fl.lt_def, Fl.cls]
        | pinf => simp [Fl.lt] at b1
        | fin b =>
          simp only [Fl.le, Fl.lt, Fl.eq, Bool.or_eq_true, decide_eq_true_eq, not_or, not_lt] at b2
          have : b < a := lt_of_le_of_ne b2.1 (fun e => b2.2 e.symm)
          simpa using this

/-- What `compass_search::evolve` did: it evaluated `new`, all inside the bounds and at most `max_fevals + 2 * nx`; the
selected individual `(x0, f0)` was improved to `(x, f)`, which is the selected individual itself or an evaluated point
`better` than it, and an individual was replaced by it. -/
def Searched (better : List (Fl K) → List (Fl K) → Prop) (P : AProb K) (A : Compass K) (s s' : St K σ) : Prop :=
  ∃ new, s'.evs = s.evs ++ new ∧ (∀ p ∈ new, InBox P.lb P.ub 0 p.1) ∧
    new.length ≤ A.maxFevals + 2 * P.info.nx ∧
    (A.maxFevals = 0 ∧ s' = s ∨
      ∃ (i j : Nat) (x0 f0 x f : List (Fl K)), Picked better s.pop A.select i ∧ s.pop.x[i]? = some x0 ∧
        s.pop.f[i]? = some f0 ∧
        ((x, f) = (x0, f0) ∨ (x, Except.ok f) ∈ new ∧ better f f0) ∧
        Picked better s.pop A.replace j ∧ s'.pop.id = s.pop.id ∧ s'.pop.x = s.pop.x.set j x ∧
        s'.pop.f = s.pop.f.set j f)

/-- How `compass_search::evolve` can fail: the user's code throws, a policy index is too large, memory runs out. -/
def SearchFailed (P : AProb K) (A : Compass K) (s : St K σ) (e : Exn) (s' : St K σ) : Prop :=
  ∃ new, s'.evs = s.evs ++ new ∧ (∀ p ∈ new, InBox P.lb P.ub 0 p.1) ∧
    new.length ≤ A.maxFevals + 2 * P.info.nx ∧
    (UserFault P s'.evs e ∨
      e = .invalidArgument ∧ (∃ k, (A.select = .index k ∨ A.replace = .index k) ∧ s.pop.id.length ≤ k) ∨
      e = .badAlloc ∧ s.pop.faults ≠ [])

theorem compass_evolve {v : Env K σ} {rep rep' : K → Prop} (hg : v.g.Lawful rep') (hd : Directed v.op rep)
    {P : AProb K} (hP : Searchable v.op rep P) (hst : P.info.stochastic = false) {A : Compass K}
    (hA : CompassArgs A.start A.stop A.red) (hrs : ∀ a, A.start = .fin a → rep a)
    (hN : A.maxFevals + 2 * P.info.nx < 2 ^ 32) {s : St K σ}
    (hi : Inv P.info s.pop) (hne : s.pop.id ≠ []) (hsz : s.pop.id.length ≤ 2 ^ 64 - 1)
    (hbox : ∀ x ∈ s.pop.x, InBox P.lb P.ub 0 x ∧ RepVec rep x)
    {better : List (Fl K) → List (Fl K) → Prop}
    (hb : ∀ f g : List (Fl K), f.length = P.info.nf → g.length = P.info.nf →
      (better f g ↔ Con.compareFc v.sq f g P.info.nec s.pop.tol = .ok true))
    (tr : ∀ f g h : List (Fl K), f.length = P.info.nf → g.length = P.info.nf → h.length = P.info.nf →
      better f g → better g h → better f h)
    (hr : ∀ pol, pol = A.select ∨ pol = A.replace → pol = .best ∨ pol = .worst → Ranked v P better s.pop)
    (fuel : Nat) (hfuel : A.maxFevals + 1 < fuel) :
    wp (compassEvolve v P A fuel) (fun _ s' => Searched better P A s s') (SearchFailed P A s) s := by
  obtain ⟨a, q, hsa, ha0, _, _, _, hqr, hq0, hq1⟩ := hA
  have hnx0 : 0 < P.info.nx := by rw [hP.nx]; exact List.length_pos_iff.mpr hP.bounds.nonempty
  unfold compassEvolve
  rw [if_neg (by simpa using hP.nobj), if_neg (by simp [hst]), wp_bind, wp_get',
    if_neg (fun h => hne (List.length_eq_zero_iff.mp h))]
  split
  · rename_i h0
    exact ⟨[], by simp, by simp, by simp, Or.inl ⟨h0, rfl⟩⟩
  · rw [wp_bind]
    refine wp_select hg hi hne hsz (hr A.select (Or.inl rfl)) ?_ ?_
    · intro i e x0 f0 hp hx0 hf0
      have hx0m := List.mem_of_getElem? hx0
      have hf0l := hi.wf.dimF f0 (List.mem_of_getElem? hf0)
      rw [wp_bind]
      refine compass_loop (better := better) (s0 := { s with e := e }) hd hP hq0 hq1 hqr hb hf0l tr hi.tol hN ?_ ?_ fuel _ [] _
        ⟨rfl, by simp, by simp, (hbox x0 hx0m).1, (hbox x0 hx0m).2, hf0l, Or.inl rfl, ⟨a, hsa, ha0.le, hrs a hsa⟩⟩ rfl
        (by simp) (by simpa using hfuel) (by omega)
      · intro c new s1 hc hlen
        have hpop : s1.pop = s.pop := hc.pop
        refine wp_replace hg hnx0 (by rw [hP.nobj]; exact Nat.one_pos) (by rw [hpop]; exact hi) (by rw [hpop]; exact hne)
          (by rw [hpop]; exact hsz) (by rw [hpop]; exact hr A.replace (Or.inr rfl)) (by rw [hP.nx]; exact hc.here.1)
          hc.len ?_ ?_
        · intro j e' p hp' h1 h2 h3 h4 h5 h6
          rw [hpop] at hp' h1 h2 h3
          exact ⟨new, hc.evs, hc.box, hlen, Or.inr ⟨i, j, x0, f0, c.x, c.f, hp, hx0, hf0, hc.imp, hp', h1, h2, h3⟩⟩
        · intro e' s' h1 h2
          rw [hpop] at h2
          refine ⟨new, by rw [h1]; exact hc.evs, hc.box, hlen, Or.inr ?_⟩
          rcases h2 with ⟨h2, k, h3, h4⟩ | h2
          · exact Or.inl ⟨h2, k, Or.inr h3, h4⟩
          · exact Or.inr h2
      · intro e' new s' h1 h2 h3 h4
        exact ⟨new, h1, h2, h3, Or.inl h4⟩
    · rintro ⟨k, h1, h2⟩
      exact ⟨[], by simp, by simp, by simp, Or.inr (Or.inl ⟨rfl, k, Or.inl h1, h2⟩)⟩

/-- C65 (partial). For every population inside the bounds, every fitness function, engine, parameters the constructor
accepts and policies, in exact or rounded arithmetic: `evolve` terminates, evaluates only points inside the bounds, at
most `max_fevals + 2 * nx` of them, and the replaced individual receives the selected one or an evaluated point that
`compare_fc` prefers to it; or it throws because user code does, an index of a policy is too large or memory runs out,
still having evaluated only points inside the bounds. Missing: `max_fevals` close to the largest `unsigned`, for which
the statement is false (`C65_never_ends`). -/
theorem C65_search_partial (v : Env ℝ σ) (hsq : v.sq = Fl.sqrtR) (rep rep' : ℝ → Prop) (hg : v.g.Lawful rep')
    (hd : Directed v.op rep) (P : AProb ℝ) (hP : Searchable v.op rep P) (hst : P.info.stochastic = false)
    (n : Nat) (start stop red : Fl ℝ) (A : Compass ℝ) (hA : compassCtor (.fin 1) (.fin 0) n start stop red = .ok A)
    (sel repl : Policy) (hrs : ∀ a, start = .fin a → rep a) (hN : n + 2 * P.info.nx < 2 ^ 32) (s : St ℝ σ)
    (hi : Inv P.info s.pop) (hne : s.pop.id ≠ []) (hsz : s.pop.id.length ≤ 2 ^ 64 - 1)
    (hbox : ∀ x ∈ s.pop.x, InBox P.lb P.ub 0 x ∧ RepVec rep x)
    (hr : ∀ pol, pol = sel ∨ pol = repl → pol = .best ∨ pol = .worst → Ranked v P (FcBetter P.info.nec s.pop.tol) s.pop)
    (fuel : Nat) (hfuel : n + 1 < fuel) :
    wp (compassEvolve v P { A with select := sel, replace := repl } fuel)
      (fun _ s' => Searched (FcBetter P.info.nec s.pop.tol) P { A with select := sel, replace := repl } s s')
      (SearchFailed P { A with select := sel, replace := repl } s) s := by
  obtain ⟨hE, hArgs⟩ := compassCtor_ok hA
  subst hE
  have args : ∀ f : List (Fl ℝ), f.length = P.info.nf → FcArgs P.info.nec s.pop.tol f := by
    intro f hf
    have h1 := hi.tol
    have h2 := hP.nobj
    refine ⟨?_, ?_⟩ <;> simp only [Info.nf, Info.nc] at * <;> omega
  have htr := (C11_strict_partial_order_partial P.info.nec s.pop.tol).2.2
  refine compass_evolve hg hd hP hst hArgs hrs hN hi hne hsz hbox (fun f g _ _ => by rw [FcBetter, hsq]) ?_ hr fuel hfuel
  intro f g h hf hg hh
  exact htr f g h (args f hf) (args g hg) (args h hh)

omit [IsStrictOrderedRing K] in
/-- C65 (errors). More than one objective, a stochastic problem or an empty population: `std::invalid_argument`, before
any evaluation. -/
theorem C65_throws (v : Env K σ) (P : AProb K) (A : Compass K) (fuel : Nat) (s : St K σ)
    (h : P.info.nobj ≠ 1 ∨ P.info.stochastic = true ∨ s.pop.id = []) :
    compassEvolve v P A fuel s = (.throws .invalidArgument, s) := by
  unfold compassEvolve
  by_cases h1 : P.info.nobj = 1
  · rw [if_neg (by simpa using h1)]
    cases h2 : P.info.stochastic with
    | true => rfl
    | false =>
      have h3 : s.pop.id = [] := by
        rcases h with h | h | h
        · exact absurd h1 h
        · rw [h2] at h; cases h
        · exact h
      simp only [Bool.false_eq_true, if_false]
      show Run.bind _ _ s = _
      simp only [Run.bind, Run.get, h3, List.length_nil, if_true]
      rfl
  · rw [if_pos (by simpa using h1)]; rfl

/-- C65 (constructor). The parameters accepted are those of the documentation, except that `stop_range` may also be zero
or negative. -/
theorem C65_ctor (n : Nat) (start stop red : Fl K) :
    (CompassArgs start stop red →
      compassCtor (.fin 1) (.fin 0) n start stop red = .ok ⟨n, start, stop, red, .best, .best⟩) ∧
    (¬ CompassArgs start stop red → compassCtor (.fin 1) (.fin 0) n start stop red = .throws .invalidArgument) := by
  constructor
  · rintro ⟨a, r, rfl, h1, h2, h3, h4, rfl, h5, h6⟩
    unfold compassCtor
    rw [if_neg, if_neg, if_neg]
    · simp [Fl.ge, Fl.le, Fl.lt, Fl.eq, Fl.isNan, not_lt.mpr h5.le, not_lt.mpr h6.le, h5.ne', Ne.symm h6.ne]
    · have h4' : Fl.lt stop (.fin a) = true := (Fl.lt_iff h3 (by simp)).mpr h4
      have h5' : stop < .fin 1 := lt_of_lt_of_le h4 (by simpa using h2)
      have e1 : Fl.lt (.fin 1) stop = false := by
        rw [Bool.eq_false_iff, ne_eq, Fl.lt_iff (by simp) h3]; exact not_lt.mpr h5'.le
      have e2 : Fl.lt (.fin a) stop = false := by
        rw [Bool.eq_false_iff, ne_eq, Fl.lt_iff (by simp) h3]; exact not_lt.mpr h4.le
      have e3 : Fl.eq (.fin a) stop = false := by
        cases stop with
        | fin b => simp only [Fl.eq, decide_eq_false_iff_not]; rintro rfl; exact lt_irrefl _ h4
        | _ => rfl
      have e4 : stop.isNan = false := by
        cases stop with
        | nan => exact absurd rfl h3
        | _ => rfl
      simp [Fl.gt, Fl.ge, Fl.le, e1, e2, e3, e4]
    · simp [Fl.gt, Fl.le, Fl.lt, Fl.eq, Fl.isNan, not_lt.mpr h2, not_lt.mpr h1.le, h1.ne']
  · intro h
    cases hc : compassCtor (.fin 1) (.fin 0) n start stop red with
    | ok A => exact absurd (compassCtor_ok hc).2 h
    | throws e =>
      unfold compassCtor at hc
      split at hc
      · exact hc.symm
      · split at hc
        · exact hc.symm
        · split at hc
          · exact hc.symm
          · cases hc
    | ub => unfold compassCtor at hc; split at hc <;> [cases hc; (split at hc <;> [cases hc; (split at hc <;> cases hc)])]
    | nofuel => unfold compassCtor at hc; split at hc <;> [cases hc; (split at hc <;> [cases hc; (split at hc <;> cases hc)])]

/-! ### The arithmetic -/

/-- Exact arithmetic. -/
theorem directed_exact : Directed (Fl.exact K) (fun _ => True) where
  sub_nonneg l u h := by
    simp only [Fl.exact, Fl.sub, Fl.neg, Fl.add, Fl.fin_le_fin]; linarith
  mul_nonneg a b ha hb := by
    simp only [Fl.exact, Fl.mul, Fl.fin_le_fin]; exact ⟨by simp, mul_nonneg ha hb⟩
  mul_shrink a b ha _ hb _ := by
    simp only [Fl.exact, Fl.mul, Fl.fin_le_fin]; exact mul_le_of_le_one_right ha hb
  add_ge x d _ hd h := by
    rcases nonneg_cases hd h with rfl | ⟨k, rfl, hk⟩
    · simp [Fl.exact, Fl.add, Fl.le_def, Fl.cls]
    · simp only [Fl.exact, Fl.add, Fl.fin_le_fin]; exact ⟨by simp, by linarith⟩
  sub_le x d _ hd h := by
    rcases nonneg_cases hd h with rfl | ⟨k, rfl, hk⟩
    · simp [Fl.exact, Fl.sub, Fl.neg, Fl.add, Fl.le_def, Fl.cls]
    · simp only [Fl.exact, Fl.sub, Fl.neg, Fl.add, Fl.fin_le_fin]; exact ⟨by simp, by linarith⟩
  rep_add _ _ _ _ _ := trivial
  rep_sub _ _ _ _ := trivial
  rep_mul _ _ _ _ := trivial

/-- Rounded arithmetic, for any rounding that is monotone and keeps doubles and zero. -/
theorem directed_rounded (rnd : K → K) (hm : ∀ a b, a ≤ b → rnd a ≤ rnd b) (h0 : rnd 0 = 0)
    (hi : ∀ a, rnd (rnd a) = rnd a) : Directed (Fl.rounded K rnd) (fun a => rnd a = a) where
  sub_nonneg l u h := by
    simp only [Fl.rounded, Fl.sub, Fl.neg, Fl.add, Fl.post, Fl.fin_le_fin]
    rw [← h0]; exact hm _ _ (by linarith)
  mul_nonneg a b ha hb := by
    simp only [Fl.rounded, Fl.mul, Fl.post, Fl.fin_le_fin]
    exact ⟨by simp, by rw [← h0]; exact hm _ _ (mul_nonneg ha hb)⟩
  mul_shrink a b ha _ hb hr := by
    simp only [Fl.rounded, Fl.mul, Fl.post, Fl.fin_le_fin]
    conv_rhs => rw [← hr]
    exact hm _ _ (mul_le_of_le_one_right ha hb)
  add_ge x d hr hd h := by
    rcases nonneg_cases hd h with rfl | ⟨k, rfl, hk⟩
    · simp [Fl.rounded, Fl.add, Fl.post, Fl.le_def, Fl.cls]
    · simp only [Fl.rounded, Fl.add, Fl.post, Fl.fin_le_fin]
      refine ⟨by simp, ?_⟩
      conv_lhs => rw [← hr]
      exact hm _ _ (by linarith)
  sub_le x d hr hd h := by
    rcases nonneg_cases hd h with rfl | ⟨k, rfl, hk⟩
    · simp [Fl.rounded, Fl.sub, Fl.neg, Fl.add, Fl.post, Fl.le_def, Fl.cls]
    · simp only [Fl.rounded, Fl.sub, Fl.neg, Fl.add, Fl.post, Fl.fin_le_fin]
      refine ⟨by simp, ?_⟩
      conv_rhs => rw [← hr]
      exact hm _ _ (by linarith)
  rep_add a _ c d h := by
    cases hs : Fl.add (.fin a) d with
    | fin k =>
      simp only [Fl.rounded, hs, Fl.post, Fl.fin.injEq] at h
      rw [← h]; exact hi _
    | _ => simp [Fl.rounded, hs, Fl.post] at h
  rep_sub a c d h := by
    cases hs : Fl.sub (.fin a) d with
    | fin k =>
      simp only [Fl.rounded, hs, Fl.post, Fl.fin.injEq] at h
      rw [← h]; exact hi _
    | _ => simp [Fl.rounded, hs, Fl.post] at h
  rep_mul a b c h := by
    simp only [Fl.rounded, Fl.mul, Fl.post, Fl.fin.injEq] at h
    rw [← h]; exact hi _

/-! ### A search that never ends -/

/-- one variable in [0, 1], objective always 0 -/
def flatProb : AProb K := ⟨P1, [.fin 0], [.fin 1], 0, fun _ _ => .ok [.fin 0]⟩

/-- one individual -/
def flatPop : Pop.State K := ⟨[1], [[.fin 0]], [[.fin 0]], [.fin 0], [.fin 0], [], fun n => n, []⟩

omit [IsStrictOrderedRing K] in
theorem flat_trial (v : Env K σ) {c : CVars K} {s : St K σ} {xt : List (Fl K)} (hc : c.f = [.fin 0]) (hx : xt.length = 1)
    (hs : s.pop = flatPop) :
    compassTrial v flatProb xt c s = (.ok { c with fevals := incU c.fevals }, { s with evs := s.evs ++ [(xt, .ok [.fin 0])] }) := by
  have h1 : eval flatProb xt s = (.ok [.fin 0], { s with evs := s.evs ++ [(xt, .ok [.fin 0])] }) := by
    simp [eval, Pop.probFitness, flatProb, P1, hx, Info.nf]
  have h2 : Con.compareFc v.sq ([.fin 0] : List (Fl K)) [.fin 0] 0 [] = .ok false := by
    simp [Con.compareFc, Con.testCons, Con.testLoop, Outcome.get, Fl.lessThanF, Fl.lt, Fl.isNan, Fl.add]
  unfold compassTrial
  show Run.bind _ _ _ = _
  rw [Run.bind, h1]
  show Run.bind _ _ _ = _
  simp only [Run.bind, Run.get]
  show Run.bind _ _ _ = _
  simp only [Run.bind, Run.lift, hc, hs, flatPop, flatProb, P1, h2]
  rfl

omit [IsStrictOrderedRing K] in
theorem flat_coord (v : Env K σ) {c : CVars K} {s : St K σ} (hf : c.flag = false) (hx : c.x.length = 1)
    (hc : c.f = [.fin 0]) (hs : s.pop = flatPop) :
    ∃ s', compassCoord v flatProb c 0 s = (.ok { c with fevals := incU (incU c.fevals) }, s') ∧ s'.pop = flatPop := by
  obtain ⟨a, ha⟩ : ∃ a, c.x = [a] := List.length_eq_one_iff.mp hx
  unfold compassCoord
  rw [if_neg (by simp [hf])]
  have key : ∀ (m : Outcome (Fl K)) (b : Fl K) (k : Fl K → Run (St K σ) (CVars K)), m = .ok b →
      (Run.lift m >>= k) s = k b s := by rintro _ b k rfl; rfl
  have key2 : ∀ (m : Outcome (List (Fl K))) (b : List (Fl K)) (k : List (Fl K) → Run (St K σ) (CVars K)) (s : St K σ), m = .ok b →
      (Run.lift m >>= k) s = k b s := by rintro _ b k s rfl; rfl
  rw [key _ a _ (by rw [ha]; rfl), key (Outcome.get flatProb.lb 0) (.fin 0) _ rfl, key (Outcome.get flatProb.ub 0) (.fin 1) _ rfl, key2 _ _ _ _ (Outcome.set_of_lt (by omega))]
  show ∃ s', Run.bind _ _ s = _ ∧ _
  rw [Run.bind]
  rw [flat_trial v hc (by simpa using hx) hs]
  simp only [hf, Bool.false_eq_true, if_false]
  rw [key2 _ _ _ _ (Outcome.set_of_lt (by simp [hx]))]
  exact ⟨_, flat_trial v hc (by simp [hx]) hs, hs⟩

omit [IsStrictOrderedRing K] in
theorem flat_loop (v : Env K σ) {rep : K → Prop} (hd : Directed v.op rep) {A : Compass K} (hmax : A.maxFevals = 2 ^ 32 - 1)
    {q : K} (hq0 : 0 < q) (hq1 : q < 1) (hred : A.red = .fin q) (hstop : Fl.lt A.stop (.fin 0) = true) (n : Nat) :
    ∀ (c : CVars K) (s : St K σ), c.x.length = 1 → c.f = [.fin 0] → (∃ r : K, c.range = .fin r ∧ 0 ≤ r ∧ rep r) →
      c.fevals < 2 ^ 32 → s.pop = flatPop → (compassLoop v flatProb A n c s).1 = .nofuel := by
  induction n with
  | zero => intros; rfl
  | succ n ih =>
    rintro c s hx hf ⟨r, hr, hr0, hrr⟩ hfe hs
    have hgt : Fl.gt c.range A.stop = true := by
      rw [hr, Fl.gt]
      cases hst : A.stop with
      | fin b =>
        rw [hst] at hstop
        simp only [Fl.lt, decide_eq_true_eq] at hstop ⊢
        exact lt_of_lt_of_le hstop hr0
      | ninf => rfl
      | nan => rw [hst] at hstop; cases hstop
      | pinf => rw [hst] at hstop; cases hstop
    unfold compassLoop
    rw [if_pos (by simp [hgt, hmax]; omega)]
    show (Run.bind _ _ s).1 = _
    obtain ⟨s', h1, h2⟩ := flat_coord (c := { c with flag := false }) v rfl hx hf hs
    have h3 : (List.range (flatProb : AProb K).info.nx).foldlM (compassCoord v flatProb) { c with flag := false } s =
        (.ok { c with flag := false, fevals := incU (incU c.fevals) }, s') := by
      show Run.bind (compassCoord v flatProb { c with flag := false } 0) _ s = _
      rw [Run.bind, h1]
      rfl
    rw [Run.bind, h3]
    refine ih _ s' ?_ ?_ ?_ ?_ h2
    · simpa [compassShrink] using hx
    · simpa [compassShrink] using hf
    · obtain ⟨m1, m2⟩ := hd.mul_nonneg r q hr0 hq0.le
      have m3 := hd.mul_shrink r q hr0 hq0.le hq1.le hrr
      obtain ⟨k, hk, hk0, _⟩ := between_cases m2 m3
      exact ⟨k, by simp [compassShrink, hr, hred, hk], hk0, hd.rep_mul r q k hk⟩
    · simp only [compassShrink, incU, Bool.false_eq_true, if_false]
      exact Nat.mod_lt _ (by norm_num)

/-- C65 is false: with the largest `max_fevals` and a negative `stop_range`, both accepted by the constructor, the loop
never ends (no amount of fuel suffices), for any engine, also in rounded arithmetic. The population has one individual,
the objective is constant. -/
theorem C65_never_ends (v : Env K σ) (rep : K → Prop) (hd : Directed v.op rep) (hh : rep (1 / 2)) (e : σ) :
    ∃ A, compassCtor (.fin 1) (.fin 0) (2 ^ 32 - 1) (.fin (1 / 2)) (.fin (-1)) (.fin (1 / 2)) = .ok A ∧
      ∀ fuel, (compassEvolve v flatProb A fuel ⟨flatPop, e, []⟩).1 = .nofuel := by
  have hA : CompassArgs (K := K) (.fin (1 / 2)) (.fin (-1)) (.fin (1 / 2)) := by
    refine ⟨1 / 2, 1 / 2, rfl, by norm_num, by norm_num, by simp, ?_, rfl, by norm_num, by norm_num⟩
    have : (-1 : K) < 1 / 2 := by norm_num
    simpa using this
  refine ⟨_, (C65_ctor _ _ _ _).1 hA, fun fuel => ?_⟩
  have hl := flat_loop v hd (A := ⟨2 ^ 32 - 1, .fin (1 / 2), .fin (-1), .fin (1 / 2), .best, .best⟩) (q := 1 / 2) rfl
    (by norm_num) (by norm_num) rfl (by simp [Fl.lt]) fuel ⟨[.fin 0], [.fin 0], false, 0, .fin (1 / 2)⟩
    ⟨flatPop, e, []⟩ rfl rfl ⟨1 / 2, rfl, by norm_num, hh⟩ (by norm_num) rfl
  have hsel : selectIndividual v flatProb .best ⟨flatPop, e, []⟩ = (.ok ([.fin 0], [.fin 0]), ⟨flatPop, e, []⟩) := rfl
  unfold compassEvolve
  rw [if_neg (by simp [flatProb, P1]), if_neg (by simp [flatProb, P1])]
  show (Run.bind Run.get _ _).1 = _
  rw [Run.bind]
  simp only [Run.get]
  rw [if_neg (by simp [flatPop]), if_neg (by norm_num)]
  show (Run.bind (selectIndividual v flatProb .best) _ _).1 = _
  rw [Run.bind, hsel]
  show (Run.bind _ _ _).1 = _
  rw [Run.bind]
  revert hl
  generalize compassLoop v flatProb _ fuel _ _ = r
  rcases r with ⟨_ | _ | _ | _, s⟩ <;> intro hl <;> first | rfl | cases hl

/-! ### non-triviality -/

/-- the parabola of `algDemo` over the reals -/
noncomputable def parabola : AProb ℝ := ⟨P1, [.fin 0], [.fin 10], 0, fun _ x => .ok (x.map (fun a => Fl.mul a a))⟩

theorem parabola_searchable : Searchable (Fl.exact ℝ) (fun _ => True) parabola where
  bounds := by
    refine ⟨by simp [parabola], rfl, ?_, by simp [parabola], ?_, ?_⟩
    · intro i l u hl hu
      cases i with
      | zero =>
        simp only [parabola, List.getElem?_cons_zero, Option.some.injEq] at hl hu
        subst hl hu
        exact ⟨by simp, by simp, by simp⟩
      | succ i => simp [parabola] at hl
    · intro i a h1 h2
      have := (List.getElem?_eq_some_iff.mp h2).1
      simp [parabola] at *; omega
    · intro i a h1 h2
      have := (List.getElem?_eq_some_iff.mp h2).1
      simp [parabola] at *; omega
  nx := rfl
  nobj := rfl
  finite i l u hl hu := by
    cases i with
    | zero =>
      simp only [parabola, List.getElem?_cons_zero, Option.some.injEq] at hl hu
      subst hl hu
      exact ⟨rfl, rfl, rfl⟩
    | succ i => simp [parabola] at hl
  repB _ _ := trivial

/-- C65: the hypotheses are met by a search on the parabola, two evaluations allowed, index policies. -/
example (g : Gen ℝ σ) (rep' : ℝ → Prop) (hg : g.Lawful rep') (e : σ) :
    ∃ A, compassCtor (.fin 1) (.fin 0) 2 (.fin (1 / 2)) (.fin (1 / 100)) (.fin (1 / 2)) = .ok A ∧
    wp (compassEvolve ⟨insSort, Fl.sqrtR, Fl.exact ℝ, g⟩ parabola { A with select := .index 0, replace := .index 1 } 4)
      (fun _ s' => Searched (FcBetter 0 []) parabola { A with select := .index 0, replace := .index 1 }
        ⟨⟨[1, 2], [[.fin 3], [.fin 4]], [[.fin 9], [.fin 16]], [], [], [], fun n => n, []⟩, e, []⟩ s')
      (SearchFailed parabola { A with select := .index 0, replace := .index 1 }
        ⟨⟨[1, 2], [[.fin 3], [.fin 4]], [[.fin 9], [.fin 16]], [], [], [], fun n => n, []⟩, e, []⟩)
      ⟨⟨[1, 2], [[.fin 3], [.fin 4]], [[.fin 9], [.fin 16]], [], [], [], fun n => n, []⟩, e, []⟩ := by
  have hA : CompassArgs (K := ℝ) (.fin (1 / 2)) (.fin (1 / 100)) (.fin (1 / 2)) := by
    refine ⟨1 / 2, 1 / 2, rfl, by norm_num, by norm_num, by simp, ?_, rfl, by norm_num, by norm_num⟩
    have : (1 / 100 : ℝ) < 1 / 2 := by norm_num
    simpa using this
  refine ⟨_, (C65_ctor _ _ _ _).1 hA, ?_⟩
  refine C65_search_partial ⟨insSort, Fl.sqrtR, Fl.exact ℝ, g⟩ rfl (fun _ => True) rep' hg directed_exact parabola
    parabola_searchable rfl 2 _ _ _ _ ((C65_ctor _ _ _ _).1 hA) (.index 0) (.index 1) (fun _ _ => trivial) (by simp [parabola, P1])
    _ ⟨⟨rfl, rfl, ?_, ?_⟩, Or.inl ⟨rfl, rfl⟩, rfl⟩ (by simp) (by simp) ?_ (by simp) 4 (by norm_num)
  · simp [parabola, P1]
  · simp [parabola, P1, Info.nf]
  · intro x hx
    refine ⟨inBox0 ?_ ?_, fun _ _ => trivial⟩
    · simp only [List.mem_cons, List.not_mem_nil, or_false] at hx
      rcases hx with rfl | rfl <;> rfl
    · intro i l u w hl hu hw
      simp only [List.mem_cons, List.not_mem_nil, or_false] at hx
      cases i with
      | zero =>
        simp only [parabola, List.getElem?_cons_zero, Option.some.injEq] at hl hu
        subst hl hu
        rcases hx with rfl | rfl <;>
          (simp only [List.getElem?_cons_zero, Option.some.injEq] at hw; subst hw; constructor <;> simp <;> norm_num)
      | succ i => simp [parabola] at hl

/-- The search on the parabola, run: from 1 it goes to 0 in steps of a tenth of the range. -/
example : (compassEvolve algDemoEnv algDemo ⟨20, .fin (1 / 10), .fin (1 / 100), .fin (1 / 2), .best, .worst⟩ 30
    algDemoSt).2.pop.x = [[.fin 0], [.fin 1], [.fin 2]] := by decide +kernel

end Verif.Props
