import Verif.Proof.PsoGen

/-!
# C95 and C96: a run of `pso_gen`

The properties are stated with the definitions of Verif/Spec/PsoGen.lean and of Verif/Props/Pso.lean (formulas of the variants,
topologies).
-/

set_option autoImplicit false

namespace Verif.Props

open Verif Run Prob Pop Alg Rnd

variable {K σ : Type} [Field K] [LinearOrder K]

section
variable [IsStrictOrderedRing K]

theorem pg_run {v : Env K σ} {rep : K → Prop} (hg : v.g.Lawful rep) (hop : PsoOps v) {P : AProb K} (hP : FiniteBox P)
    (hnobj : P.info.nobj = 1) (hnc : P.info.nc = 0) {A : Pso K} (hA : PsoPars A) {bfe : Option (Batch K)} (hok : ∀ b, bfe = some b → BatchOk P b)
    (hgens : A.gens + 1 < 2 ^ 32) {s : St K σ} (hi : Inv P.info s.pop) (h0 : 0 < s.pop.id.length)
    (hsz : s.pop.id.length < 2 ^ 63) (hx : ∀ x ∈ s.pop.x, AllFin x) (hbox : P.info.stochastic = true → ∀ x ∈ s.pop.x, InBox P.lb P.ub 0 x)
    (hring : RingFits A s.pop.id.length) {V : List (List (Fl K))}
    (hV : A.memory = true → V.length = s.pop.id.length → Vecs s.pop.id.length P.info.nx V) {fuel : Nat} (hfuel : A.gens < fuel) :
    wp (psoGenEvolve v P A bfe fuel V) (fun V' s' => PgDone v P A bfe.isSome V s V' s') (MoFailed (InBox P.lb P.ub 0) P v.op bfe s) s := by
  have hnf : P.info.nf = 1 := by simp only [Info.nf, Info.nc] at *; omega
  have hnx : 0 < P.info.nx := by
    rw [hP.nx]; exact List.length_pos_of_ne_nil hP.bounds.nonempty
  unfold psoGenEvolve
  rw [if_neg (by omega), if_neg (by omega), wp_bind, wp_get, if_neg (by omega), wp_bind, wp_onRng]
  refine (wp_psoInitV hg hop hP hA hV (E := fun e p => MoFailed (InBox P.lb P.ub 0) P v.op bfe s e { s with e := p }) s.e).mono ?_ (fun _ _ h => h)
  rintro V0 e ⟨hv1, hv2, hv3⟩
  rw [wp_bind]
  refine (wp_psoTopology (Clean := CleanPop s) (s := { s with e := e }) hg hnobj hnc hA hi h0 hsz hring (fun h => h) V0
    (E := MoFailed (InBox P.lb P.ub 0) P v.op bfe s)).mono ?_ (fun _ _ h => h)
  rintro ⟨nb0, bx, bf⟩ s1 ⟨hp1, he1, hS, hL, hB⟩
  dsimp only at hp1 he1 hS hL hB
  have hf1 : ∀ f ∈ s.pop.f, f.length = 1 := fun f hf => by rw [← hnf]; exact hi.wf.dimF f hf
  have hvx : Vecs s.pop.id.length P.info.nx s.pop.x := ⟨hi.wf.xs, hi.wf.dimX, hx⟩
  obtain ⟨m, hm⟩ : ∃ m, m = s.pop.id.length * (if P.info.stochastic = true then 2 else 1) := ⟨_, rfl⟩
  have hI0 : PgInv (CleanPop s) P A s.pop.id.length s (0 * m) ⟨s.pop.x, V0, s.pop.x, s.pop.f, nb0, bx, bf, false⟩ [] s1 := by
    refine ⟨?_, hp1, by simp, ⟨hvx, hv1, hvx, hi.wf.fs, hf1, hL, ?_⟩, ?_, hbox, fun _ => hB.is, fun _ hc ht f hf => noWorse_of_notAbove (hB.min hc ht f hf)⟩
    · exact ⟨by rw [hp1]; exact hi, by rw [hp1], by rw [hp1], by rw [he1]; simp, by simp, by simp, fun h => by rw [hp1]; exact h⟩
    · intro h
      obtain ⟨q, hq, _⟩ := hB.is (Or.inl h)
      have hmem := List.mem_of_getElem? (hq h)
      exact ⟨hi.wf.dimX _ hmem, hx _ hmem⟩
    · intro h
      obtain ⟨q, _, hq⟩ := hB.is h
      exact hf1 _ (List.mem_of_getElem? hq)
  rw [wp_bind]
  have key := wpn_genLoop (N := False) (body := pgGen v P A bfe s.pop.id.length) hgens (E := MoFailed (InBox P.lb P.ub 0) P v.op bfe s)
    (fun k c s' => Steps (PgGeneration (CleanPop s) v P A bfe.isSome s.pop.id.length) k ⟨s.pop.x, V0, s.pop.x, s.pop.f, nb0, bx, bf, s.evs⟩
      (flock c s'.evs) ∧ ∃ new, PgInv (CleanPop s) P A s.pop.id.length s (k * m) c new s') ?_ fuel 0
    ⟨s.pop.x, V0, s.pop.x, s.pop.f, nb0, bx, bf, false⟩ s1 (by omega) (by omega) ?_
  · refine (wp_of_wpn key).mono ?_ (fun _ _ h => h)
    rintro c s2 ⟨hSt, new, hI⟩
    rw [wp_bind]
    refine (wp_psoCopyBack hnx hnobj hnc hI.ready.lbX hI.ready.fitL hI.ready.fit1 hI.tr (by rw [hI.tr.id])).mono ?_ (fun _ _ h => moFailed_of h)
    rintro _ s3 ⟨t, ex, ef⟩
    rw [wp_pure]
    have hev : s3.evs = s2.evs := by rw [t.evs, hI.tr.evs]
    refine ⟨t.inv, t.id, hI.ready.vel, ⟨V0, nb0, bx, bf, flock c s2.evs, hv2, hv3, hS, ?_, hSt, rfl, ex.symm, ef.symm, hev.symm⟩, new, t.evs, t.box, t.user, ?_⟩
    · intro h
      obtain ⟨q, h1, h2⟩ := hB.is (Or.inl h)
      exact ⟨⟨q, h1 h, h2⟩, fun hc f hf => noWorse_of_notAbove (hB.min hc (Or.inl h) f hf)⟩
    · rw [hI.cnt, hm, Nat.mul_assoc]
  · rintro k c s2 hk ⟨hSt, new, hI⟩
    refine wpn_of_wp ((wp_pgGen hg hop hP hnobj hnc hA hok h0 hm hI).mono ?_ (fun _ _ h => h))
    rintro r s3 ⟨hr, hG, new', hI'⟩
    exact ⟨hr, .snoc hSt hG, new', hI'⟩
  · refine ⟨?_, [], hI0⟩
    unfold flock
    dsimp only
    rw [he1]
    exact .refl _

/-- C95. What a run of `pso_gen` does, see `PgDone`: in a generation all velocities are computed from the swarm before it, by the formula
of the variant, then all particles move and are evaluated (with the batch evaluator, if there is one), and own bests, leader
and neighbours are those of the new swarm. Only points within the bounds are evaluated, `gens * n` of them, twice as many for a
stochastic problem. If the run fails, then because the user's function or batch evaluator did.
Missing: the cases in which the behaviour is undefined or leaves the bounds (`RingFits`, NaN parameters, velocities of another problem), and
that the leader is the best position known on a stochastic problem, which is false. -/
theorem C95_evolve_partial (v : Env K σ) (rep : K → Prop) (hg : v.g.Lawful rep) (hop : PsoOps v) (P : AProb K) (hP : FiniteBox P)
    (hnobj : P.info.nobj = 1) (hnc : P.info.nc = 0) (gens : Nat) (o e1 e2 m : K)
    (variant topology param : Nat) (memory : Bool) (A : Pso K)
    (hA : psoCtor gens (.fin o) (.fin e1) (.fin e2) (.fin m) variant topology param memory = .ok A)
    (bfe : Option (Batch K)) (hok : ∀ b, bfe = some b → BatchOk P b)
    (hgens : A.gens + 1 < 2 ^ 32) (s : St K σ) (hi : Inv P.info s.pop) (h0 : 0 < s.pop.id.length)
    (hsz : s.pop.id.length < 2 ^ 63) (hx : ∀ x ∈ s.pop.x, AllFin x) (hbox : P.info.stochastic = true → ∀ x ∈ s.pop.x, InBox P.lb P.ub 0 x)
    (hring : RingFits A s.pop.id.length) (V : List (List (Fl K)))
    (hV : A.memory = true → V.length = s.pop.id.length → Vecs s.pop.id.length P.info.nx V) (fuel : Nat) (hfuel : A.gens < fuel) :
    wp (psoGenEvolve v P A bfe fuel V) (fun V' s' => PgDone v P A bfe.isSome V s V' s') (MoFailed (InBox P.lb P.ub 0) P v.op bfe s) s :=
  pg_run hg hop hP hnobj hnc (psoPars_of hA) hok hgens hi h0 hsz hx hbox hring hV hfuel

/-- the own bests after `k` generations on a problem that is not stochastic -/
theorem pg_own {Clean : Prop} {v : Env K σ} {P : AProb K} {A : Pso K} {batch : Bool} {n : Nat} (hst : P.info.stochastic = false) {a : Flock K}
    (hX : a.bestX.length = n) (hF : a.bestF.length = n) (hF1 : ∀ f ∈ a.bestF, f.length = 1) :
    ∀ (k : Nat) (b : Flock K), Steps (PgGeneration Clean v P A batch n) k a b → b.bestX.length = n ∧ b.bestF.length = n ∧
      ∃ new, b.evs = a.evs ++ new ∧ new.length = k * n ∧ ∀ (i : Nat) (x f : List (Fl K)), b.bestX[i]? = some x → b.bestF[i]? = some f →
        f.length = 1 ∧ (a.bestX[i]? = some x ∧ a.bestF[i]? = some f ∨ ∃ j : Nat, j < k ∧ new[j * n + i]? = some (x, .ok f)) ∧
        (∀ g : List (Fl K), a.bestF[i]? = some g → NoWorse f g) ∧
        (∀ (j : Nat) (y g : List (Fl K)), new[j * n + i]? = some (y, .ok g) → NoWorse f g) := by
  intro k
  induction k with
  | zero =>
    intro b h
    cases h
    refine ⟨hX, hF, [], by simp, by simp, fun i x f h1 h2 => ⟨hF1 f (List.mem_of_getElem? h2), Or.inl ⟨h1, h2⟩, fun g hg => ?_, fun j y g h => by simp at h⟩⟩
    rw [h2, Option.some.injEq] at hg
    subst hg
    exact noWorse_refl (hF1 f (List.mem_of_getElem? h2))
  | succ k ih =>
    intro c h
    cases h with
    | snoc h hG =>
      rename_i b
      obtain ⟨lX, lF, new, he, hl, hown⟩ := ih b h
      obtain ⟨g1, g2, g3, g4, fs, os, fl, ol, f1, o1, _, hasc, hrem, _, _⟩ := hG
      obtain ⟨rfl, hev⟩ := hasc.1 hst
      have hzl : (asCalls (c.xs.zip fs)).length = n := by simp [asCalls, g1, fl]
      refine ⟨g3, g4, new ++ asCalls (c.xs.zip fs), by rw [hev, he, List.append_assoc], ?_, ?_⟩
      · rw [List.length_append, hl, hzl, Nat.add_mul, Nat.one_mul]
      intro i x f h1 h2
      have hin : i < n := by have := (List.getElem?_eq_some_iff.mp h1).1; omega
      have ax : c.xs[i]? = some (c.xs[i]'(by omega)) := List.getElem?_eq_getElem (by omega)
      have af : fs[i]? = some (fs[i]'(by omega)) := List.getElem?_eq_getElem (by omega)
      have al : b.bestX[i]? = some (b.bestX[i]'(by omega)) := List.getElem?_eq_getElem (by omega)
      have ao : b.bestF[i]? = some (b.bestF[i]'(by omega)) := List.getElem?_eq_getElem (by omega)
      have hlast : (new ++ asCalls (c.xs.zip fs))[k * n + i]? = some (c.xs[i]'(by omega), .ok (fs[i]'(by omega))) := by
        rw [List.getElem?_append_right (by omega), hl, Nat.add_sub_cancel_left]
        unfold asCalls
        rw [List.getElem?_map, List.getElem?_zip_eq_some.mpr (show c.xs[i]? = some (c.xs[i]'(by omega), fs[i]'(by omega)).1 ∧ fs[i]? = some (c.xs[i]'(by omega), fs[i]'(by omega)).2
          from ⟨ax, af⟩)]
        rfl
      obtain ⟨p1, p2, p3, p4⟩ := hown i _ _ al ao
      have hfl := f1 _ (List.mem_of_getElem? af)
      have hcases : ∀ (j : Nat) (y g : List (Fl K)), (new ++ asCalls (c.xs.zip fs))[j * n + i]? = some (y, .ok g) →
          new[j * n + i]? = some (y, .ok g) ∨ g = fs[i]'(by omega) := by
        intro j y g hj
        by_cases hjk : j < k
        · left
          rw [List.getElem?_append_left] at hj
          · exact hj
          · have : (j + 1) * n ≤ k * n := Nat.mul_le_mul_right n hjk
            rw [Nat.add_mul, Nat.one_mul] at this
            omega
        · right
          by_cases e : j = k
          · subst e
            rw [hlast, Option.some.injEq, Prod.mk.injEq] at hj
            have := hj.2
            exact (Except.ok.inj this).symm
          · exfalso
            have : (k + 1) * n ≤ j * n := Nat.mul_le_mul_right n (by omega)
            have h' := (List.getElem?_eq_some_iff.mp hj).1
            rw [List.length_append, hl, hzl] at h'
            rw [Nat.add_mul, Nat.one_mul] at this
            omega
      rcases hrem i _ _ _ _ ax af al ao with ⟨q1, q2, q3⟩ | ⟨q1, q2, q3⟩
      · rw [q2, Option.some.injEq] at h1
        rw [q3, Option.some.injEq] at h2
        subst h1; subst h2
        refine ⟨hfl, Or.inr ⟨k, by omega, hlast⟩, fun g hg => noWorse_trans q1 (p3 g hg), fun j y g hj => ?_⟩
        rcases hcases j y g hj with h' | rfl
        · exact noWorse_trans q1 (p4 j y g h')
        · exact noWorse_refl hfl
      · rw [q2, Option.some.injEq] at h1
        rw [q3, Option.some.injEq] at h2
        subst h1; subst h2
        refine ⟨p1, ?_, p3, fun j y g hj => ?_⟩
        · refine p2.imp id ?_
          rintro ⟨j, hj, h'⟩
          refine ⟨j, by omega, ?_⟩
          rw [List.getElem?_append_left (List.getElem?_eq_some_iff.mp h').1]
          exact h'
        · rcases hcases j y g hj with h' | rfl
          · exact p4 j y g h'
          · exact noWorse_total hfl p1 q1

/-- C96. On a problem that is not stochastic, what a run returns for an individual is the individual given or a point evaluated for it, and
none of these is better. NaN included: a NaN is worse than anything else. -/
theorem C96_best (v : Env K σ) (rep : K → Prop) (hg : v.g.Lawful rep) (hop : PsoOps v) (P : AProb K) (hP : FiniteBox P)
    (hnobj : P.info.nobj = 1) (hnc : P.info.nc = 0) (hst : P.info.stochastic = false) (gens : Nat) (o e1 e2 m : K)
    (variant topology param : Nat) (memory : Bool) (A : Pso K)
    (hA : psoCtor gens (.fin o) (.fin e1) (.fin e2) (.fin m) variant topology param memory = .ok A)
    (bfe : Option (Batch K)) (hok : ∀ b, bfe = some b → BatchOk P b)
    (hgens : A.gens + 1 < 2 ^ 32) (s : St K σ) (hi : Inv P.info s.pop) (h0 : 0 < s.pop.id.length)
    (hsz : s.pop.id.length < 2 ^ 63) (hx : ∀ x ∈ s.pop.x, AllFin x)
    (hring : RingFits A s.pop.id.length) (V : List (List (Fl K)))
    (hV : A.memory = true → V.length = s.pop.id.length → Vecs s.pop.id.length P.info.nx V) (fuel : Nat) (hfuel : A.gens < fuel) :
    wp (psoGenEvolve v P A bfe fuel V) (fun _ s' => ∃ new, s'.evs = s.evs ++ new ∧ new.length = A.gens * s.pop.id.length ∧
      ∀ (i : Nat) (x f : List (Fl K)), s'.pop.x[i]? = some x → s'.pop.f[i]? = some f →
        (s.pop.x[i]? = some x ∧ s.pop.f[i]? = some f ∨ ∃ k : Nat, k < A.gens ∧ new[k * s.pop.id.length + i]? = some (x, .ok f)) ∧
        (∀ g : List (Fl K), s.pop.f[i]? = some g → NoWorse f g) ∧
        (∀ (k : Nat) (y g : List (Fl K)), new[k * s.pop.id.length + i]? = some (y, .ok g) → NoWorse f g))
      (MoFailed (InBox P.lb P.ub 0) P v.op bfe s) s := by
  have hnf : P.info.nf = 1 := by simp only [Info.nf, Info.nc] at *; omega
  refine (pg_run hg hop hP hnobj hnc (psoPars_of hA) hok hgens hi h0 hsz hx (fun h => absurd (hst.symm.trans h) (by decide)) hring hV hfuel).mono ?_ (fun _ _ h => h)
  rintro V' s' hd
  obtain ⟨V0, nb0, l0, f0, b, _, _, _, _, hS, _, ex, ef, ee⟩ := hd.run
  obtain ⟨_, _, new, he, hl, hown⟩ := pg_own hst hi.wf.xs hi.wf.fs (fun f hf => by rw [← hnf]; exact hi.wf.dimF f hf) _ _ hS
  rw [ee] at he
  refine ⟨new, he, hl, fun i x f h1 h2 => ?_⟩
  rw [← ex] at h1
  rw [← ef] at h2
  exact (hown i x f h1 h2).2

/-- C96. On a stochastic problem, everything returned was evaluated in the last generation, under the last seed. What is returned for
an individual is the better one of two points: its last position `y` and its best `l` so far. -/
theorem C96_stochastic (v : Env K σ) (rep : K → Prop) (hg : v.g.Lawful rep) (hop : PsoOps v) (P : AProb K) (hP : FiniteBox P)
    (hnobj : P.info.nobj = 1) (hnc : P.info.nc = 0) (hst : P.info.stochastic = true) (gens : Nat) (o e1 e2 m : K)
    (variant topology param : Nat) (memory : Bool) (A : Pso K)
    (hA : psoCtor gens (.fin o) (.fin e1) (.fin e2) (.fin m) variant topology param memory = .ok A) (hg0 : 0 < A.gens)
    (bfe : Option (Batch K)) (hok : ∀ b, bfe = some b → BatchOk P b)
    (hgens : A.gens + 1 < 2 ^ 32) (s : St K σ) (hi : Inv P.info s.pop) (h0 : 0 < s.pop.id.length)
    (hsz : s.pop.id.length < 2 ^ 63) (hbox : ∀ x ∈ s.pop.x, InBox P.lb P.ub 0 x)
    (hring : RingFits A s.pop.id.length) (V : List (List (Fl K)))
    (hV : A.memory = true → V.length = s.pop.id.length → Vecs s.pop.id.length P.info.nx V) (fuel : Nat) (hfuel : A.gens < fuel) :
    wp (psoGenEvolve v P A bfe fuel V) (fun _ s' => ∃ before last, s'.evs = before ++ last ∧ last.length = s.pop.id.length * 2 ∧
      ∀ (i : Nat) (x f : List (Fl K)), s'.pop.x[i]? = some x → s'.pop.f[i]? = some f → ∃ y g l o : List (Fl K),
        last[if bfe.isSome then i else 2 * i]? = some (y, .ok g) ∧
        last[if bfe.isSome then s.pop.id.length + i else 2 * i + 1]? = some (l, .ok o) ∧
        ((x, f) = (y, g) ∨ (x, f) = (l, o)) ∧ NoWorse f g ∧ NoWorse f o)
      (MoFailed (InBox P.lb P.ub 0) P v.op bfe s) s := by
  refine (pg_run hg hop hP hnobj hnc (psoPars_of hA) hok hgens hi h0 hsz (fun x h => allFin_of_box hP (hbox x h)) (fun _ => hbox) hring hV hfuel).mono ?_ (fun _ _ h => h)
  rintro V' s' hd
  obtain ⟨V0, nb0, l0, f0, b, _, _, _, _, hS, _, ex, ef, ee⟩ := hd.run
  obtain ⟨k, hk⟩ : ∃ k, A.gens = k + 1 := ⟨A.gens - 1, by omega⟩
  rw [hk] at hS
  cases hS with
  | snoc hS hG =>
    rename_i a
    have haX : a.bestX.length = s.pop.id.length := by
      cases hS with
      | refl => exact hi.wf.xs
      | snoc _ hG' => exact hG'.2.2.1
    obtain ⟨g1, g2, g3, g4, fs, os, fl, ol, f1, o1, _, hasc, hrem, _, _⟩ := hG
    have hev : b.evs = a.evs ++ twice bfe.isSome b.xs fs a.bestX os := by
      unfold twice
      cases hb : bfe.isSome with
      | true => rw [if_pos rfl]; exact hasc.2.1 hst hb
      | false => exact hasc.2.2 hst hb
    refine ⟨a.evs, twice bfe.isSome b.xs fs a.bestX os, by rw [← ee, hev], twice_length _ g1 fl haX ol, fun i x f h1 h2 => ?_⟩
    rw [← ex] at h1
    rw [← ef] at h2
    have hin : i < s.pop.id.length := by have := (List.getElem?_eq_some_iff.mp h1).1; omega
    have ax : b.xs[i]? = some (b.xs[i]'(by omega)) := List.getElem?_eq_getElem (by omega)
    have af : fs[i]? = some (fs[i]'(by omega)) := List.getElem?_eq_getElem (by omega)
    have al : a.bestX[i]? = some (a.bestX[i]'(by omega)) := List.getElem?_eq_getElem (by omega)
    have ao : os[i]? = some (os[i]'(by omega)) := List.getElem?_eq_getElem (by omega)
    have hfl := f1 _ (List.mem_of_getElem? af)
    have hol := o1 _ (List.mem_of_getElem? ao)
    refine ⟨_, _, _, _, (twice_get bfe.isSome g1 fl haX ol ax af al ao).1, (twice_get bfe.isSome g1 fl haX ol ax af al ao).2, ?_⟩
    rcases hrem i _ _ _ _ ax af al ao with ⟨q1, q2, q3⟩ | ⟨q1, q2, q3⟩
    · rw [q2, Option.some.injEq] at h1
      rw [q3, Option.some.injEq] at h2
      subst h1; subst h2
      exact ⟨Or.inl rfl, noWorse_refl hfl, q1⟩
    · rw [q2, Option.some.injEq] at h1
      rw [q3, Option.some.injEq] at h2
      subst h1; subst h2
      exact ⟨Or.inr rfl, noWorse_total hfl hol q1, noWorse_refl hol⟩

end

/-- C95, `evolve` throws for constraints, several objectives and an empty population, and nothing has happened. -/
theorem C95_throws (v : Env K σ) (P : AProb K) (A : Pso K) (bfe : Option (Batch K)) (fuel : Nat) (V : List (List (Fl K))) (s : St K σ)
    (h : P.info.nc ≠ 0 ∨ P.info.nf ≠ 1 ∨ s.pop.id.length = 0) : psoGenEvolve v P A bfe fuel V s = (.throws .invalidArgument, s) := by
  unfold psoGenEvolve
  by_cases h1 : P.info.nc ≠ 0
  · rw [if_pos h1]; rfl
  rw [if_neg h1]
  by_cases h2 : P.info.nf ≠ 1
  · rw [if_pos h2]; rfl
  rw [if_neg h2]
  have h4 : s.pop.id.length = 0 := by tauto
  show Run.bind Run.get _ s = _
  simp only [Run.bind, Run.get]
  rw [if_pos h4]; rfl

/-! ### Examples and counterexamples -/

/-- the problem of the examples, declared to be stochastic -/
def pgNoisy : AProb ℚ := { algDemo with info := { algDemo.info with stochastic := true } }

theorem pgNoisy_box : FiniteBox pgNoisy := ⟨algDemo_finiteBox.1, algDemo_finiteBox.2, algDemo_finiteBox.3, algDemo_finiteBox.4⟩

theorem pgNoisy_inv : Inv pgNoisy.info deDemoSt.pop := ⟨⟨rfl, rfl, deDemo_inv.wf.3, deDemo_inv.wf.4⟩, Or.inr ⟨rfl, rfl⟩, rfl⟩

/-- a batch evaluator -/
def pgBatch : Batch ℚ := fun _ dvs => .ok (dvs.map (fun a => Fl.mul a a))

theorem pgBatch_ok : BatchOk algDemo pgBatch := by
  intro h dvs fvs hb i hi hj
  have : fvs = dvs.map (fun a => Fl.mul a a) := by cases hb; rfl
  subst this
  refine ⟨h, ?_⟩
  show Except.ok _ = Except.ok _
  simp [chunk, algDemo, P1, Info.nf]

example : wp (psoGenEvolve algDemoEnv algDemo (psoDemo 2 5 2 4) (some pgBatch) 3 [])
    (fun V' s' => PgDone algDemoEnv algDemo (psoDemo 2 5 2 4) true [] deDemoSt V' s')
    (MoFailed (InBox algDemo.lb algDemo.ub 0) algDemo algDemoEnv.op (some pgBatch) deDemoSt) deDemoSt :=
  C95_evolve_partial algDemoEnv _ demoGen_lawful psoDemoOps algDemo algDemo_finiteBox rfl rfl 2 _ _ _ _ 5 2 4 false _ (psoDemo_ok (by decide))
    (some pgBatch) (fun b hb => by cases hb; exact pgBatch_ok) (by decide) deDemoSt deDemo_inv (by decide) (by decide) deDemo_fin
    (fun h => by cases h) (fun _ _ _ => by decide) [] (fun h => by cases h) 3 (by decide)

example : wp (psoGenEvolve algDemoEnv algDemo (psoDemo 2 5 2 4) (some pgBatch) 3 []) (fun _ s' => ∃ new, s'.evs = deDemoSt.evs ++ new ∧
      new.length = (psoDemo 2 5 2 4).gens * deDemoSt.pop.id.length ∧
      ∀ (i : Nat) (x f : List (Fl ℚ)), s'.pop.x[i]? = some x → s'.pop.f[i]? = some f →
        (deDemoSt.pop.x[i]? = some x ∧ deDemoSt.pop.f[i]? = some f ∨
          ∃ k : Nat, k < (psoDemo 2 5 2 4).gens ∧ new[k * deDemoSt.pop.id.length + i]? = some (x, .ok f)) ∧
        (∀ g : List (Fl ℚ), deDemoSt.pop.f[i]? = some g → NoWorse f g) ∧
        (∀ (k : Nat) (y g : List (Fl ℚ)), new[k * deDemoSt.pop.id.length + i]? = some (y, .ok g) → NoWorse f g))
      (MoFailed (InBox algDemo.lb algDemo.ub 0) algDemo algDemoEnv.op (some pgBatch) deDemoSt) deDemoSt :=
  C96_best algDemoEnv _ demoGen_lawful psoDemoOps algDemo algDemo_finiteBox rfl rfl rfl 2 _ _ _ _ 5 2 4 false _ (psoDemo_ok (by decide))
    (some pgBatch) (fun b hb => by cases hb; exact pgBatch_ok) (by decide) deDemoSt deDemo_inv (by decide) (by decide) deDemo_fin
    (fun _ _ _ => by decide) [] (fun h => by cases h) 3 (by decide)

example : wp (psoGenEvolve algDemoEnv pgNoisy (psoDemo 2 5 1 4) none 3 []) (fun _ s' => ∃ before last, s'.evs = before ++ last ∧
      last.length = deDemoSt.pop.id.length * 2 ∧
      ∀ (i : Nat) (x f : List (Fl ℚ)), s'.pop.x[i]? = some x → s'.pop.f[i]? = some f → ∃ y g l o : List (Fl ℚ),
        last[if (none : Option (Batch ℚ)).isSome then i else 2 * i]? = some (y, .ok g) ∧
        last[if (none : Option (Batch ℚ)).isSome then deDemoSt.pop.id.length + i else 2 * i + 1]? = some (l, .ok o) ∧
        ((x, f) = (y, g) ∨ (x, f) = (l, o)) ∧ NoWorse f g ∧ NoWorse f o)
      (MoFailed (InBox pgNoisy.lb pgNoisy.ub 0) pgNoisy algDemoEnv.op none deDemoSt) deDemoSt :=
  C96_stochastic algDemoEnv _ demoGen_lawful psoDemoOps pgNoisy pgNoisy_box rfl rfl rfl 2 _ _ _ _ 5 1 4 false _ (psoDemo_ok (by decide)) (by decide)
    none (fun b hb => by cases hb) (by decide) deDemoSt pgNoisy_inv (by decide) (by decide) deDemo_box
    (fun h _ _ => absurd rfl h) [] (fun h => by cases h) 3 (by decide)

/-- some topologies and variants, with and without a batch evaluator: somebody improves, and both ways give the same population -/
example : ∀ t ∈ [1, 4], ∀ w ∈ [5, 6],
    (psoGenEvolve algDemoEnv algDemo (psoDemo 2 w t 4) none 3 [] deDemoSt).2.evs.length = 10 ∧
    (psoGenEvolve algDemoEnv pgNoisy (psoDemo 2 w t 4) (some pgBatch) 3 [] deDemoSt).2.evs.length = 20 ∧
    (psoGenEvolve algDemoEnv algDemo (psoDemo 2 w t 4) none 3 [] deDemoSt).2.pop.f ≠ deDemoSt.pop.f ∧
    (psoGenEvolve algDemoEnv algDemo (psoDemo 2 w t 4) none 3 [] deDemoSt).2.pop.f =
      (psoGenEvolve algDemoEnv algDemo (psoDemo 2 w t 4) (some pgBatch) 3 [] deDemoSt).2.pop.f := by
  decide +kernel

example : psoGenEvolve algDemoEnv algDemo (psoDemo 2 5 2 4) none 3 [] { deDemoSt with pop := { deDemoSt.pop with id := [], x := [], f := [] } } =
    (.throws .invalidArgument, { deDemoSt with pop := { deDemoSt.pop with id := [], x := [], f := [] } }) := C95_throws _ _ _ _ _ _ _ (Or.inr (Or.inr rfl))

/-- C95 is false for the default parameters and a single individual, and for `neighb_param` 1: undefined behaviour, as for `pso`. -/
theorem C95_undefined :
    (psoCtor 1 (.fin (7298 / 10000)) (.fin (205 / 100)) (.fin (205 / 100)) (.fin (1 / 2)) 5 2 4 false = .ok (psoDemo 1 5 2 4) ∧
      (psoGenEvolve algDemoEnv algDemo (psoDemo 1 5 2 4) none 2 [] psoOneSt).1 = .ub) ∧
    (psoCtor 1 (.fin (7298 / 10000)) (.fin (205 / 100)) (.fin (205 / 100)) (.fin (1 / 2)) 5 2 1 false = .ok (psoDemo 1 5 2 1) ∧
      (psoGenEvolve algDemoEnv algDemo (psoDemo 1 5 2 1) none 2 [] deDemoSt).1 = .ub) :=
  ⟨⟨psoDemo_ok (by decide), by decide +kernel⟩, psoDemo_ok (by decide), by decide +kernel⟩

/-- C95 is false in the fully informed variant for `neighb_param` 1, and for the parameter NaN, which the constructor takes: points
outside the bounds (NaN) are evaluated. -/
theorem C95_nan :
    (∃ r : User (List (Fl ℚ)), (psoGenEvolve algDemoEnv algDemo (psoDemo 1 6 2 1) none 2 [] deDemoSt).2.evs[0]? = some ([Fl.nan], r)) ∧
    (∃ (A : Pso ℚ) (r : User (List (Fl ℚ))), psoCtor 1 .nan (.fin (205 / 100)) (.fin (205 / 100)) (.fin (1 / 2)) 5 2 4 false = .ok A ∧
      (psoGenEvolve algDemoEnv algDemo A none 2 [] deDemoSt).2.evs[0]? = some ([Fl.nan], r)) ∧
    ¬ InBox algDemo.lb algDemo.ub 0 [Fl.nan] := by
  refine ⟨⟨.ok [.nan], by decide +kernel⟩, ⟨{ psoDemo 1 5 2 4 with omega := .nan }, .ok [.nan], by decide +kernel, by decide +kernel⟩, C91_nan.2.2⟩

/-- C95 is false for velocities remembered from a problem with fewer variables. -/
theorem C95_memory : ∃ V : List (List (Fl ℚ)),
    (psoGenEvolve algDemoEnv algDemo { psoDemo 1 5 2 4 with memory := true } none 2 [] deDemoSt).1 = .ok V ∧
    (psoGenEvolve algDemoEnv psoTwo { psoDemo 1 5 2 4 with memory := true } none 2 V psoTwoSt).1 = .ub := by
  refine ⟨[[.fin (-1178627 / 600000)], [.fin (3649 / 3000)], [.fin 0], [.fin (-10947 / 5000)], [.fin (3649 / 2000)]], by decide +kernel, by decide +kernel⟩

/-- the variables at the beginning of a run with the topology gbest and remembered velocities -/
def pgStart : PsoVars ℚ :=
  ⟨deDemoSt.pop.x, List.replicate 5 [.fin 1], deDemoSt.pop.x, deDemoSt.pop.f, List.replicate 5 [], [.fin 1], [.fin 1], false⟩

/-- the variables, if there are any -/
def psoVarsOf (r : Outcome (PsoVars ℚ × Bool)) : Option (PsoVars ℚ) := match r with
  | .ok (c, _) => some c
  | _ => none

/-- On a stochastic problem the leader of the topology gbest, which attracts all particles, need not be the best position known:
after this generation it has a fitness above 1, while the position with the fitness 1 under the same seed is still the own best of a particle. -/
theorem C95_leader :
    ((psoVarsOf (pgGen algDemoEnv pgNoisy (psoDemo 1 5 1 4) none 5 1 pgStart deDemoSt).1).map (·.bestF) = some [.fin (15220403641 / 10000000000)]) ∧
    ((psoVarsOf (pgGen algDemoEnv pgNoisy (psoDemo 1 5 1 4) none 5 1 pgStart deDemoSt).1).map (·.lbfit[1]?) = some (some [.fin 1])) ∧
    ((psoVarsOf (pgGen algDemoEnv algDemo (psoDemo 1 5 1 4) none 5 1 pgStart deDemoSt).1).map (·.bestF) = some [.fin 1]) := by
  refine ⟨by decide +kernel, by decide +kernel, by decide +kernel⟩

end Verif.Props
