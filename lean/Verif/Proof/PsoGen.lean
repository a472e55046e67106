import Verif.Spec.PsoGen

/-!
# Lemmas about `pso_gen`
-/

set_option autoImplicit false

namespace Verif.Props

open Verif Run Prob Pop Alg Rnd

variable {K σ : Type} [Field K] [LinearOrder K]

/-! ### Comparisons -/

theorem leF_iff (a b : Fl K) : leF a b = true ↔ a ≤ b := by
  unfold leF
  rw [Bool.or_eq_true, Fl.lessThanF_iff, Fl.equalToF_iff, le_iff_lt_or_eq]

theorem noWorse_get {f g : List (Fl K)} {a b : Fl K} (hf : f[0]? = some a) (hg : g[0]? = some b) : NoWorse f g ↔ a ≤ b := by
  constructor
  · rintro ⟨a', b', h1, h2, h⟩
    rw [hf, Option.some.injEq] at h1
    rw [hg, Option.some.injEq] at h2
    subst h1; subst h2; exact h
  · exact fun h => ⟨a, b, hf, hg, h⟩

omit [Field K] [LinearOrder K] in
theorem head_one {f : List (Fl K)} (h : f.length = 1) : ∃ a, f[0]? = some a := ⟨f[0], List.getElem?_eq_getElem (by omega)⟩

theorem noWorse_refl {f : List (Fl K)} (h : f.length = 1) : NoWorse f f := by
  obtain ⟨a, ha⟩ := head_one h
  exact ⟨a, a, ha, ha, le_rfl⟩

theorem noWorse_trans {f g h : List (Fl K)} (h1 : NoWorse f g) (h2 : NoWorse g h) : NoWorse f h := by
  obtain ⟨a, b, ha, hb, hab⟩ := h1
  obtain ⟨b', c, hb', hc, hbc⟩ := h2
  rw [hb, Option.some.injEq] at hb'
  subst hb'
  exact ⟨a, c, ha, hc, hab.trans hbc⟩

theorem noWorse_total {f g : List (Fl K)} (hf : f.length = 1) (hg : g.length = 1) (h : ¬ NoWorse f g) : NoWorse g f := by
  obtain ⟨a, ha⟩ := head_one hf
  obtain ⟨b, hb⟩ := head_one hg
  rw [noWorse_get ha hb, not_le] at h
  exact ⟨b, a, hb, ha, h.le⟩

theorem noWorse_of_notAbove {f g : List (Fl K)} (h : NotAbove f g) : NoWorse f g := by
  obtain ⟨a, b, ha, hb, hab⟩ := h
  rw [fl_le_iff] at hab
  exact ⟨a, b, ha, hb, hab.2.2⟩

/-- the swarm of the model -/
def flock (c : PsoVars K) (evs : List (ECall K)) : Flock K := ⟨c.xs, c.vel, c.lbX, c.lbfit, c.nb, c.bestX, c.bestF, evs⟩

/-- the local variables fit together -/
structure Ready (P : AProb K) (A : Pso K) (n : Nat) (c : PsoVars K) : Prop where
  xs : Vecs n P.info.nx c.xs
  vel : Vecs n P.info.nx c.vel
  lbX : Vecs n P.info.nx c.lbX
  fitL : c.lbfit.length = n
  fit1 : ∀ f ∈ c.lbfit, f.length = 1
  nb : Linked A n c.nb
  lead : A.topology = 1 → c.bestX.length = P.info.nx ∧ AllFin c.bestX

section
variable [IsStrictOrderedRing K]

/-! ### Velocities -/

omit [IsStrictOrderedRing K] in
theorem pgBetter_all {n : Nat} {lbfit : List (List (Fl K))} (hL : lbfit.length = n) (h1 : ∀ f ∈ lbfit, f.length = 1) :
    ∀ (l : List Nat) (q : Nat), (∀ j ∈ l, j < n) → q < n →
      (l.foldlM (pgBetter lbfit) q).Sat (fun b => b < n ∧ (b = q ∨ b ∈ l) ∧
        ∀ j, j = q ∨ j ∈ l → ∀ f g, lbfit[b]? = some f → lbfit[j]? = some g → NoWorse f g) := by
  intro l
  induction l with
  | nil =>
    intro q _ hq
    refine Outcome.sat_ok.mpr ⟨hq, Or.inl rfl, fun j hj f g hf hg => ?_⟩
    rcases hj with rfl | hj
    · rw [hf, Option.some.injEq] at hg
      subst hg
      exact noWorse_refl (h1 f (List.mem_of_getElem? hf))
    · exact absurd hj List.not_mem_nil
  | cons j l ih =>
    intro q hl hq
    have hj := hl j (by simp)
    have hjl : j < lbfit.length := by omega
    have hql : q < lbfit.length := by omega
    have e1 := h1 _ (List.getElem_mem hjl)
    have e2 := h1 _ (List.getElem_mem hql)
    rw [List.foldlM_cons]
    unfold pgBetter
    simp only [Outcome.get_of_lt hjl, Outcome.get_of_lt hql, Outcome.bind_ok]
    rw [Outcome.get_of_lt (by omega), Outcome.get_of_lt (by omega), Outcome.bind_ok, Outcome.bind_ok, Outcome.pure_eq, Outcome.bind_ok]
    have hcmp : ∀ f g, lbfit[if leF (lbfit[j][0]'(by omega)) (lbfit[q][0]'(by omega)) then j else q]? = some f →
        (lbfit[q]? = some g ∨ lbfit[j]? = some g) → NoWorse f g := by
      intro f g hf hg
      rw [List.getElem?_eq_getElem hjl, List.getElem?_eq_getElem hql, Option.some.injEq, Option.some.injEq] at hg
      by_cases hle : leF (lbfit[j][0]'(by omega)) (lbfit[q][0]'(by omega)) = true
      · rw [if_pos hle, List.getElem?_eq_getElem hjl, Option.some.injEq] at hf
        subst hf
        rcases hg with rfl | rfl
        · exact ⟨_, _, List.getElem?_eq_getElem (by omega), List.getElem?_eq_getElem (by omega), (leF_iff _ _).mp hle⟩
        · exact noWorse_refl e1
      · rw [if_neg hle, List.getElem?_eq_getElem hql, Option.some.injEq] at hf
        subst hf
        rcases hg with rfl | rfl
        · exact noWorse_refl e2
        · refine ⟨_, _, List.getElem?_eq_getElem (by omega), List.getElem?_eq_getElem (by omega), ?_⟩
          rw [leF_iff, not_le] at hle
          exact hle.le
    generalize hb : (if leF (lbfit[j][0]'(by omega)) (lbfit[q][0]'(by omega)) then j else q) = b at hcmp
    have hbn : b < n := by rw [← hb]; split <;> assumption
    have hbm : b = q ∨ b = j := by rw [← hb]; split <;> simp
    refine (ih b (fun j' h => hl j' (by simp [h])) hbn).mono ?_
    rintro r ⟨g1, g2, g3⟩
    refine ⟨g1, ?_, fun j' hj' f g hf hg => ?_⟩
    · rcases g2 with rfl | h
      · rcases hbm with rfl | rfl
        · exact Or.inl rfl
        · exact Or.inr (by simp)
      · exact Or.inr (by simp [h])
    · have hb' : lbfit[b]? = some (lbfit[b]'(by omega)) := List.getElem?_eq_getElem (by omega)
      rcases hj' with rfl | hj'
      · exact noWorse_trans (g3 b (Or.inl rfl) f _ hf hb') (hcmp _ g hb' (Or.inl hg))
      · rcases List.mem_cons.mp hj' with rfl | hj'
        · exact noWorse_trans (g3 b (Or.inl rfl) f _ hf hb') (hcmp _ g hb' (Or.inr hg))
        · exact g3 j' (Or.inr hj') f g hf hg

omit [IsStrictOrderedRing K] in
theorem pgLeader_ok {P : AProb K} {A : Pso K} {n : Nat} {c : PsoVars K} (hi : Ready P A n c) {p : Nat} (hp : p < n) {nbp : List Nat}
    (hnb : c.nb[p]? = some nbp) (evs : List (ECall K)) :
    (pgLeader A c p).Sat (fun b => (A.topology = 1 → b = c.bestX) ∧
      (A.variant ≠ 6 → (b.length = P.info.nx ∧ AllFin b) ∧ (A.topology ≠ 1 → BestNear (flock c evs) nbp b))) := by
  unfold pgLeader
  have hfl := hi.fitL
  have hXl := hi.lbX.len
  by_cases h : A.topology ≠ 1 ∧ A.variant ≠ 6
  · rw [if_pos h]
    unfold pgBest
    have hpl : p < c.nb.length := by rw [hi.nb.len]; exact hp
    have e : c.nb[p] = nbp := by rw [List.getElem?_eq_getElem hpl] at hnb; exact Option.some.inj hnb
    have hne := hi.nb.some (Or.inl h.1) nbp (List.mem_of_getElem? hnb)
    have hon := hi.nb.only nbp (List.mem_of_getElem? hnb)
    obtain ⟨q, l, rfl⟩ := List.exists_cons_of_ne_nil hne
    rw [Outcome.get_of_lt hpl, Outcome.bind_ok, e, Outcome.get_of_lt (by simp), Outcome.bind_ok]
    obtain ⟨b, hb, b1, b2, b3⟩ := pgBetter_all hi.fitL hi.fit1 l q (fun j hj => hon j (by simp [hj])) (hon q (by simp))
    show (Outcome.bind _ _).Sat _
    rw [show ((q :: l).drop 1) = l from rfl, show (q :: l)[0] = q from rfl, hb]
    show (Outcome.get c.lbX b).Sat _
    rw [Outcome.get_of_lt (by omega), Outcome.sat_ok]
    refine ⟨fun h' => absurd h' h.1, fun _ => ⟨⟨hi.lbX.dim _ (List.getElem_mem _), hi.lbX.fin _ (List.getElem_mem _)⟩, fun _ => ⟨b,
      c.lbfit[b]'(by omega), ?_, List.getElem?_eq_getElem (l := c.lbX) (by omega), List.getElem?_eq_getElem (l := c.lbfit) (by omega), ?_⟩⟩⟩
    · rcases b2 with rfl | h'
      · simp
      · simp [h']
    · intro q' g hq' hg
      exact b3 q' (List.mem_cons.mp hq') _ g (List.getElem?_eq_getElem (by omega)) hg
  · rw [if_neg h, Outcome.sat_ok]
    refine ⟨fun _ => rfl, fun h6 => ?_⟩
    have h1 : A.topology = 1 := by by_contra h'; exact h ⟨h', h6⟩
    exact ⟨hi.lead h1, fun h' => absurd h1 h'⟩

theorem wp_pgSteer {v : Env K σ} {rep : K → Prop} (hg : v.g.Lawful rep) (hop : PsoOps v) {P : AProb K} {A : Pso K} (hA : PsoPars A)
    {n : Nat} {c : PsoVars K} (hi : Ready P A n c) (evs : List (ECall K)) {E : Exn → σ → Prop} (s : σ) :
    wp ((List.range n).foldlM (pgSteer v P A) c) (fun c' _ => ∃ (vel : List (List (Fl K))) (bx : List (Fl K)),
      c' = { c with vel := vel, bestX := bx } ∧ (A.topology = 1 → bx = c.bestX) ∧ Vecs n P.info.nx vel ∧
      ∀ (p : Nat) (u : List (Fl K)), vel[p]? = some u → Steered v P A (flock c evs) p u) E s := by
  refine (wp_range (E := E) (fun i c' _ => ∃ (vel : List (List (Fl K))) (bx : List (Fl K)),
      c' = { c with vel := vel, bestX := bx } ∧ (A.topology = 1 → bx = c.bestX) ∧ Vecs n P.info.nx vel ∧
      (∀ (p : Nat) (u : List (Fl K)), p < i → vel[p]? = some u → Steered v P A (flock c evs) p u) ∧
      (∀ p : Nat, i ≤ p → vel[p]? = c.vel[p]?)) n c s ⟨c.vel, c.bestX, rfl, fun _ => rfl, hi.vel, fun p u h => by omega, fun _ _ => rfl⟩ ?_).mono ?_
      (fun (e : Exn) s' (h : E e s') => h)
  · rintro i c' s' hin ⟨vel, bx, rfl, hbx, hV, hdone, hrest⟩
    have hR : Ready P A n { c with vel := vel, bestX := bx } := ⟨hi.xs, hV, hi.lbX, hi.fitL, hi.fit1, hi.nb, fun h => by
      show bx.length = _ ∧ AllFin bx
      rw [hbx h]; exact hi.lead h⟩
    have hxl := hi.xs.len
    have hvl := hV.len
    have hll := hi.lbX.len
    have hnl := hi.nb.len
    have hnbp : c.nb[i]? = some (c.nb[i]'(by omega)) := List.getElem?_eq_getElem (by omega)
    obtain ⟨b, hb, hb1, hb2⟩ := pgLeader_ok hR hin (nbp := c.nb[i]'(by omega)) hnbp evs
    unfold pgSteer
    rw [hb, wp_bind, wp_lift_ok, wp_bind]
    dsimp only at hb1 hb2 ⊢
    rw [wp_lift_get (by omega), wp_bind, wp_lift_get (by omega), wp_bind, wp_lift_get (by omega), wp_bind, wp_lift_get (by omega), wp_bind]
    have hxm := List.getElem_mem (l := c.xs) (n := i) (by omega)
    have hvm := List.getElem_mem (l := vel) (n := i) (by omega)
    have hlm := List.getElem_mem (l := c.lbX) (n := i) (by omega)
    have hnm := List.getElem_mem (l := c.nb) (n := i) (by omega)
    refine (wp_psoVel hg hop hA hi.lbX (hi.nb.only _ hnm) (fun h => hi.nb.some (Or.inr h) _ hnm) (hi.lbX.dim _ hlm) (hi.lbX.fin _ hlm)
      (hi.xs.dim _ hxm) (hi.xs.fin _ hxm) (fun h => (hb2 h).1) (hV.dim _ hvm) (hV.fin _ hvm) s').mono ?_ (fun _ _ h => h)
    rintro u e ⟨hul, huf, hpull, hall⟩
    rw [wp_bind, wp_lift_set (by omega), wp_pure]
    refine ⟨vel.set i u, b, rfl, fun h => (hb1 h).trans (hbx h), hV.set hul huf, ?_, ?_⟩
    · intro p u' hp hu'
      rw [List.getElem?_set] at hu'
      by_cases e' : i = p
      · subst e'
        simp only [if_true, show i < vel.length by omega, Option.some.injEq] at hu'
        subst hu'
        have hw : c.vel[i]? = some (vel[i]'(by omega)) := by rw [← hrest i le_rfl]; exact List.getElem?_eq_getElem (by omega)
        refine ⟨_, _, _, _, b, hnbp, List.getElem?_eq_getElem (l := c.xs) (by omega), hw, List.getElem?_eq_getElem (l := c.lbX) (by omega), ?_, hall⟩
        exact fun h6 => ⟨fun h => (hb1 h).trans (hbx h), (hb2 h6).2, hpull h6⟩
      · rw [if_neg e'] at hu'
        exact hdone p u' (by omega) hu'
    · intro p hp
      rw [List.getElem?_set_ne (by omega)]
      exact hrest p (by omega)
  · rintro c' s' ⟨vel, bx, rfl, hbx, hV, hdone, hrest⟩
    refine ⟨vel, bx, rfl, hbx, hV, fun p u hu => hdone p u ?_ hu⟩
    have := (List.getElem?_eq_some_iff.mp hu).1
    rw [hV.len] at this; exact this

/-! ### Positions -/

theorem pgAdvance_all {v : Env K σ} (hop : PsoOps v) {P : AProb K} (hP : FiniteBox P) {A : Pso K} (hA : PsoPars A) {n : Nat}
    {c : PsoVars K} (hx : Vecs n P.info.nx c.xs) (hv : Vecs n P.info.nx c.vel) :
    ((List.range n).foldlM (pgAdvance v.op P A) c).Sat (fun c' => ∃ xs vel : List (List (Fl K)), c' = { c with xs := xs, vel := vel } ∧
      Vecs n P.info.nx xs ∧ Vecs n P.info.nx vel ∧ (∀ y ∈ xs, InBox P.lb P.ub 0 y) ∧
      ∀ (p : Nat) (y w : List (Fl K)), xs[p]? = some y → vel[p]? = some w →
        ∃ x u : List (Fl K), c.xs[p]? = some x ∧ c.vel[p]? = some u ∧ Flown v.op P A x u y w) := by
  refine (Outcome.range_sat (f := pgAdvance v.op P A) (fun i c' => ∃ xs vel : List (List (Fl K)), c' = { c with xs := xs, vel := vel } ∧
      Vecs n P.info.nx xs ∧ Vecs n P.info.nx vel ∧ (∀ (p : Nat) (y : List (Fl K)), p < i → xs[p]? = some y → InBox P.lb P.ub 0 y) ∧
      (∀ (p : Nat) (y w : List (Fl K)), p < i → xs[p]? = some y → vel[p]? = some w →
        ∃ x u : List (Fl K), c.xs[p]? = some x ∧ c.vel[p]? = some u ∧ Flown v.op P A x u y w) ∧
      (∀ p : Nat, i ≤ p → xs[p]? = c.xs[p]? ∧ vel[p]? = c.vel[p]?)) n c
      ⟨c.xs, c.vel, rfl, hx, hv, fun p y h => by omega, fun p y w h => by omega, fun _ _ => ⟨rfl, rfl⟩⟩ ?_).mono ?_
  · rintro i c' hin ⟨xs, vel, rfl, hX, hV, hbox, hdone, hrest⟩
    have hxl := hX.len
    have hvl := hV.len
    unfold pgAdvance
    dsimp only
    rw [Outcome.get_of_lt (by omega), Outcome.bind_ok, Outcome.get_of_lt (by omega), Outcome.bind_ok]
    have hxm := List.getElem_mem (l := xs) (n := i) (by omega)
    have hvm := List.getElem_mem (l := vel) (n := i) (by omega)
    obtain ⟨⟨y, w⟩, hyw, hb, hwf, hfly⟩ := fly_ok hop hP hA (hX.dim _ hxm) (hX.fin _ hxm) (hV.dim _ hvm) (hV.fin _ hvm)
    rw [hyw, Outcome.bind_ok]
    dsimp only at hb hwf hfly ⊢
    rw [Outcome.set_of_lt (by omega), Outcome.bind_ok, Outcome.set_of_lt (by omega), Outcome.bind_ok, Outcome.pure_eq, Outcome.sat_ok]
    have e1 : c.xs[i]? = some (xs[i]'(by omega)) := by rw [← (hrest i le_rfl).1]; exact List.getElem?_eq_getElem (by omega)
    have e2 : c.vel[i]? = some (vel[i]'(by omega)) := by rw [← (hrest i le_rfl).2]; exact List.getElem?_eq_getElem (by omega)
    refine ⟨xs.set i y, vel.set i w, rfl, hX.set hfly.1 (allFin_of_box hP hb), hV.set hfly.2.1 hwf, ?_, ?_, ?_⟩
    · intro p y' hp hy
      rw [List.getElem?_set] at hy
      by_cases e : i = p
      · subst e
        simp only [if_true, show i < xs.length by omega, Option.some.injEq] at hy
        subst hy; exact hb
      · rw [if_neg e] at hy
        exact hbox p y' (by omega) hy
    · intro p y' w' hp hy hw
      rw [List.getElem?_set] at hy hw
      by_cases e : i = p
      · subst e
        simp only [if_true, show i < xs.length by omega, show i < vel.length by omega, Option.some.injEq] at hy hw
        subst hy; subst hw
        exact ⟨_, _, e1, e2, hfly⟩
      · rw [if_neg e] at hy hw
        exact hdone p y' w' (by omega) hy hw
    · intro p hp
      rw [List.getElem?_set_ne (by omega), List.getElem?_set_ne (by omega)]
      exact hrest p (by omega)
  · rintro c' ⟨xs, vel, rfl, hX, hV, hbox, hdone, hrest⟩
    refine ⟨xs, vel, rfl, hX, hV, ?_, ?_⟩
    · intro y hy
      obtain ⟨p, hp⟩ := List.mem_iff_getElem?.mp hy
      exact hbox p y (by have := (List.getElem?_eq_some_iff.mp hp).1; rw [hX.len] at this; exact this) hp
    · intro p y w hy hw
      exact hdone p y w (by have := (List.getElem?_eq_some_iff.mp hy).1; rw [hX.len] at this; exact this) hy hw

/-! ### Evaluations -/

omit [IsStrictOrderedRing K] in
theorem wp_pgEach {B : List (Fl K) → Prop} {P : AProb K} {s0 : St K σ} {Q : List (List (Fl K)) → St K σ → Prop} {E : Exn → St K σ → Prop}
    (he : ∀ e s', FailedBy B P s0 e s' → E e s') :
    ∀ (xs : List (List (Fl K))) (acc : List (List (Fl K))) (new : List (ECall K)) (s : St K σ), TrackedBy B P s0 new s →
      (∀ x ∈ xs, x.length = P.info.nx) → (∀ x ∈ xs, B x) →
      (∀ fs s', fs.length = xs.length → (∀ f ∈ fs, f.length = P.info.nf) → s'.pop = s.pop → s'.e = s.e →
        TrackedBy B P s0 (new ++ asCalls (xs.zip fs)) s' → Q (acc ++ fs) s') →
      wp (xs.foldlM (pgEval P) acc) Q E s := by
  intro xs
  induction xs with
  | nil =>
    intro acc new s ht _ _ hq
    rw [List.foldlM_nil, wp_pure]
    have := hq [] s rfl (by simp) rfl rfl (by simpa [asCalls] using ht)
    simpa using this
  | cons x xs ih =>
    intro acc new s ht hx hB hq
    rw [List.foldlM_cons, wp_bind]
    unfold pgEval
    rw [wp_bind]
    refine wp_eval_by (hx x (by simp)) ht (hB x (by simp)) ?_ he
    intro f s1 hf hp hE ht1
    rw [wp_pure]
    refine ih (acc ++ [f]) _ s1 ht1 (fun y hy => hx y (by simp [hy])) (fun y hy => hB y (by simp [hy])) ?_
    intro fs s2 h1 h2 h3 h4 h5
    rw [List.append_assoc, List.singleton_append]
    refine hq (f :: fs) s2 (by simp [h1]) ?_ (h3.trans hp) (h4.trans hE) ?_
    · intro g hg
      rcases List.mem_cons.mp hg with rfl | hg
      · exact hf
      · exact h2 g hg
    · rw [List.append_assoc] at h5
      exact h5

omit [IsStrictOrderedRing K] in
theorem wp_pgTwo {B : List (Fl K) → Prop} {P : AProb K} {s0 s : St K σ} {E : Exn → St K σ → Prop}
    (he : ∀ e s', FailedBy B P s0 e s' → E e s') {n : Nat} {c : PsoVars K} (hx : Vecs n P.info.nx c.xs) (hl : Vecs n P.info.nx c.lbX)
    (hxB : ∀ x ∈ c.xs, B x) (hlB : ∀ x ∈ c.lbX, B x) {new : List (ECall K)} (ht : TrackedBy B P s0 new s) :
    wp ((List.range n).foldlM (pgEvalTwo P c) ([], [])) (fun r s' => r.1.length = n ∧ r.2.length = n ∧
      (∀ f ∈ r.1, f.length = P.info.nf) ∧ (∀ f ∈ r.2, f.length = P.info.nf) ∧ s'.pop = s.pop ∧ s'.e = s.e ∧
      TrackedBy B P s0 (new ++ ((c.xs.zip r.1).zip (c.lbX.zip r.2)).flatMap (fun q => asCalls [q.1, q.2])) s') E s := by
  have hxl := hx.len
  have hll := hl.len
  refine (wp_range (E := E) (fun i r s' => r.1.length = i ∧ r.2.length = i ∧
      (∀ f ∈ r.1, f.length = P.info.nf) ∧ (∀ f ∈ r.2, f.length = P.info.nf) ∧ s'.pop = s.pop ∧ s'.e = s.e ∧
      TrackedBy B P s0 (new ++ ((c.xs.zip r.1).zip (c.lbX.zip r.2)).flatMap (fun q => asCalls [q.1, q.2])) s') n _ s ?_ ?_).mono ?_
      (fun (e : Exn) s' (h : E e s') => h)
  · exact ⟨rfl, rfl, by simp, by simp, rfl, rfl, by simpa using ht⟩
  · rintro i ⟨fs, os⟩ s' hin ⟨h1, h2, h3, h4, h5, h6, h7⟩
    dsimp only at h1 h2 h3 h4 h7
    unfold pgEvalTwo
    rw [wp_bind, wp_lift_get (by omega), wp_bind]
    have hxm := List.getElem_mem (l := c.xs) (n := i) (by omega)
    have hlm := List.getElem_mem (l := c.lbX) (n := i) (by omega)
    refine wp_eval_by (hx.dim _ hxm) h7 (hxB _ hxm) ?_ he
    intro f s1 hf hp1 he1 ht1
    rw [wp_bind, wp_lift_get (by omega), wp_bind]
    refine wp_eval_by (hl.dim _ hlm) ht1 (hlB _ hlm) ?_ he
    intro g s2 hg hp2 he2 ht2
    rw [wp_pure]
    refine ⟨by simp [h1], by simp [h2], ?_, ?_, hp2.trans (hp1.trans h5), he2.trans (he1.trans h6), ?_⟩
    · intro f' hf'
      rcases List.mem_append.mp hf' with h | h
      · exact h3 f' h
      · rw [List.mem_singleton.mp h]; exact hf
    · intro f' hf'
      rcases List.mem_append.mp hf' with h | h
      · exact h4 f' h
      · rw [List.mem_singleton.mp h]; exact hg
    · have ez : ∀ (l : List (List (Fl K))) (r : List (List (Fl K))) (hil : i < l.length), r.length = i → ∀ z, l.zip (r ++ [z]) = l.zip r ++ [(l[i], z)] := by
        intro l r hil hr z
        have hd : l = l.take i ++ l[i] :: l.drop (i + 1) := by rw [← List.drop_eq_getElem_cons hil, List.take_append_drop]
        have ht' : (l.take i).length = r.length := by rw [List.length_take, hr]; omega
        have e1 : l.zip (r ++ [z]) = (l.take i).zip r ++ [(l[i], z)] := by
          conv_lhs => rw [hd]
          rw [List.zip_append ht', List.zip_cons_cons, List.zip_nil_right]
        have e2 : l.zip r = (l.take i).zip r := by
          conv_lhs => rw [hd, ← List.append_nil r]
          rw [List.zip_append ht']
          simp
        rw [e1, e2]
      rw [ez c.xs fs (by omega) h1, ez c.lbX os (by omega) h2,
        List.zip_append (by rw [List.length_zip, List.length_zip, h1, h2]; omega), List.flatMap_append, ← List.append_assoc]
      rw [List.append_assoc] at ht2
      exact ht2
  · exact fun _ _ h => h

theorem wp_pgFit {B : List (Fl K) → Prop} {P : AProb K} {op : Fl.Ops K} {bfe : Option (Batch K)} (hok : ∀ b, bfe = some b → BatchOk P b)
    (hnx : 0 < P.info.nx) (hnobj : 0 < P.info.nobj) (hnc : P.info.nc = 0) {s0 s : St K σ} {n : Nat} {c : PsoVars K}
    (hx : Vecs n P.info.nx c.xs) (hxB : ∀ x ∈ c.xs, B x) {new : List (ECall K)} (ht : TrackedBy B P s0 new s)
    {Q : List (List (Fl K)) → St K σ → Prop} {E : Exn → St K σ → Prop}
    (hq : ∀ fs s', fs.length = n → (∀ f ∈ fs, f.length = P.info.nf) → s'.pop = s.pop → s'.e = s.e →
      TrackedBy B P s0 (new ++ asCalls (c.xs.zip fs)) s' → Q fs s')
    (he : ∀ e s', MoFailed B P op bfe s0 e s' → E e s') : wp (pgFit P bfe c) Q E s := by
  unfold pgFit
  cases hb : bfe with
  | some b =>
    dsimp only
    exact wp_evalBatch (bfe := bfe) (op := op) hb (hok b hb) hnx hnobj hnc ht hx.dim hxB (fun fs s' h1 => hq fs s' (h1.trans hx.len)) he
  | none =>
    dsimp only
    exact wp_pgEach (fun e s' h => he e s' (moFailed_of h)) c.xs [] new s ht hx.dim hxB (fun fs s' h1 => hq fs s' (h1.trans hx.len))

/-- the calls of a generation on a stochastic problem -/
def twice (batch : Bool) (xs fs ls os : List (List (Fl K))) : List (ECall K) :=
  if batch then asCalls (xs.zip fs) ++ asCalls (ls.zip os) else ((xs.zip fs).zip (ls.zip os)).flatMap (fun q => asCalls [q.1, q.2])

theorem wp_pgFitTwo {B : List (Fl K) → Prop} {P : AProb K} {op : Fl.Ops K} {bfe : Option (Batch K)} (hok : ∀ b, bfe = some b → BatchOk P b)
    (hnx : 0 < P.info.nx) (hnobj : 0 < P.info.nobj) (hnc : P.info.nc = 0) {s0 s : St K σ} {n : Nat} {c : PsoVars K}
    (hx : Vecs n P.info.nx c.xs) (hl : Vecs n P.info.nx c.lbX) (hxB : ∀ x ∈ c.xs, B x) (hlB : ∀ x ∈ c.lbX, B x)
    {new : List (ECall K)} (ht : TrackedBy B P s0 new s)
    {Q : List (List (Fl K)) × List (List (Fl K)) → St K σ → Prop} {E : Exn → St K σ → Prop}
    (hq : ∀ fs os s', fs.length = n → os.length = n → (∀ f ∈ fs, f.length = P.info.nf) → (∀ f ∈ os, f.length = P.info.nf) →
      s'.pop = s.pop → s'.e = s.e → TrackedBy B P s0 (new ++ twice bfe.isSome c.xs fs c.lbX os) s' → Q (fs, os) s')
    (he : ∀ e s', MoFailed B P op bfe s0 e s' → E e s') : wp (pgFitTwo P bfe n c) Q E s := by
  unfold pgFitTwo
  cases hb : bfe with
  | some b =>
    dsimp only
    rw [wp_bind]
    refine wp_evalBatch (bfe := bfe) (op := op) hb (hok b hb) hnx hnobj hnc ht hx.dim hxB ?_ he
    intro fs s1 f1 f2 f3 f4 f5
    rw [wp_bind]
    refine wp_evalBatch (bfe := bfe) (op := op) hb (hok b hb) hnx hnobj hnc f5 hl.dim hlB ?_ he
    intro os s2 o1 o2 o3 o4 o5
    rw [wp_pure]
    refine hq fs os s2 (f1.trans hx.len) (o1.trans hl.len) f2 o2 (o3.trans f3) (o4.trans f4) ?_
    rw [hb]
    unfold twice
    rw [if_pos (show (some b).isSome = true from rfl), ← List.append_assoc]
    exact o5
  | none =>
    dsimp only
    refine (wp_pgTwo (fun e s' h => he e s' (moFailed_of h)) hx hl hxB hlB ht).mono ?_ (fun _ _ h => h)
    rintro ⟨fs, os⟩ s' ⟨h1, h2, h3, h4, h5, h6, h7⟩
    refine hq fs os s' h1 h2 h3 h4 h5 h6 ?_
    rw [hb]
    exact h7

omit [IsStrictOrderedRing K] in
theorem pgLead_ok {xs fit : List (List (Fl K))} {n : Nat} (hn : 0 < n) (hx : xs.length = n) (hf : fit.length = n) (h1 : ∀ f ∈ fit, f.length = 1) :
    (pgLead xs fit n).Sat (fun b => (∃ q : Nat, xs[q]? = some b.2 ∧ fit[q]? = some b.1) ∧ ∀ f ∈ fit, NoWorse b.1 f) := by
  unfold pgLead
  rw [Outcome.get_of_lt (by omega), Outcome.bind_ok, Outcome.get_of_lt (by omega), Outcome.bind_ok]
  have key := Outcome.foldlM_sat (f := pgLeadStep xs fit) (fun pre b => (∃ q : Nat, xs[q]? = some b.2 ∧ fit[q]? = some b.1) ∧
    ∀ (j : Nat) (f : List (Fl K)), j < pre.length + 1 → fit[j]? = some f → NoWorse b.1 f) (List.range' 1 (n - 1)) [] (fit[0]'(by omega), xs[0]'(by omega)) ?_ ?_
  · refine key.mono ?_
    rintro b ⟨g1, g2⟩
    refine ⟨g1, fun f hfm => ?_⟩
    obtain ⟨j, hj⟩ := List.mem_iff_getElem?.mp hfm
    refine g2 j f ?_ hj
    have := (List.getElem?_eq_some_iff.mp hj).1
    rw [List.nil_append, List.length_range']; omega
  · refine ⟨⟨0, List.getElem?_eq_getElem (by omega), List.getElem?_eq_getElem (by omega)⟩, fun j f hj hf' => ?_⟩
    have hj0 : j = 0 := by simpa using hj
    subst hj0
    rw [List.getElem?_eq_getElem (by omega), Option.some.injEq] at hf'
    rw [← hf']
    exact noWorse_refl (h1 _ (List.getElem_mem _))
  · rintro pre a post ⟨bf, bx⟩ hsplit ⟨⟨q, hq1, hq2⟩, g2⟩
    dsimp only at hq1 hq2 g2
    rw [List.nil_append] at g2
    have ha : a = pre.length + 1 ∧ a < n := by
      have h := congrArg (fun l => l[pre.length]?) hsplit
      rw [List.getElem?_append_right (le_refl _), Nat.sub_self, List.getElem?_cons_zero] at h
      have hlt : pre.length < n - 1 := by
        have := congrArg List.length hsplit
        simp at this
        omega
      rw [List.getElem?_range' hlt, Option.some.injEq] at h
      omega
    obtain ⟨ha, han⟩ := ha
    unfold pgLeadStep
    have ef := h1 _ (List.getElem_mem (l := fit) (n := a) (by omega))
    have eb := h1 _ (List.mem_of_getElem? hq2)
    rw [Outcome.get_of_lt (by omega), Outcome.bind_ok, Outcome.get_of_lt (by omega), Outcome.bind_ok, Outcome.get_of_lt (by dsimp only; omega), Outcome.bind_ok]
    dsimp only
    have hn' : NoWorse (fit[a]'(by omega)) bf ↔ _ := noWorse_get (List.getElem?_eq_getElem (by omega)) (List.getElem?_eq_getElem (by omega))
    have hn'' : NoWorse bf (fit[a]'(by omega)) ↔ _ := noWorse_get (List.getElem?_eq_getElem (by omega)) (List.getElem?_eq_getElem (by omega))
    by_cases hlt : Fl.lessThanF ((fit[a]'(by omega))[0]'(by omega)) (bf[0]'(by omega)) = true
    · rw [if_pos hlt, Outcome.get_of_lt (by omega), Outcome.bind_ok, Outcome.pure_eq, Outcome.sat_ok]
      rw [Fl.lessThanF_iff] at hlt
      refine ⟨⟨a, List.getElem?_eq_getElem (by omega), List.getElem?_eq_getElem (by omega)⟩, fun j f hj hf' => ?_⟩
      simp only [List.length_append, List.length_singleton, List.length_nil] at hj
      by_cases e : j = a
      · subst e
        rw [List.getElem?_eq_getElem (by omega), Option.some.injEq] at hf'
        rw [← hf']; exact noWorse_refl ef
      · exact noWorse_trans (hn'.mpr hlt.le) (g2 j f (by omega) hf')
    · rw [if_neg hlt, Outcome.pure_eq, Outcome.sat_ok]
      rw [Fl.lessThanF_iff, not_lt] at hlt
      refine ⟨⟨q, hq1, hq2⟩, fun j f hj hf' => ?_⟩
      simp only [List.length_append, List.length_singleton, List.length_nil] at hj
      by_cases e : j = a
      · subst e
        rw [List.getElem?_eq_getElem (by omega), Option.some.injEq] at hf'
        rw [← hf']; exact hn''.mpr hlt
      · exact g2 j f (by omega) hf'

/-! ### The own bests -/

/-- What the loop over the particles has done to the own bests and the leader; `c`: before the loop, `d`: after `i` particles. -/
structure PgKept (A : Pso K) (n : Nat) (fit : List (List (Fl K))) (c : PsoVars K) (i : Nat) (d : PsoVars K) : Prop where
  xs : d.xs = c.xs
  vel : d.vel = c.vel
  nb : d.nb = c.nb
  lenX : d.lbX.length = n
  lenF : d.lbfit.length = n
  done : ∀ (p : Nat) (y f l o : List (Fl K)), p < i → c.xs[p]? = some y → fit[p]? = some f → c.lbX[p]? = some l → c.lbfit[p]? = some o →
    (NoWorse f o ∧ d.lbX[p]? = some y ∧ d.lbfit[p]? = some f) ∨ (¬ NoWorse f o ∧ d.lbX[p]? = some l ∧ d.lbfit[p]? = some o)
  rest : ∀ p : Nat, i ≤ p → d.lbX[p]? = c.lbX[p]? ∧ d.lbfit[p]? = c.lbfit[p]?
  no : d.improved = false → d.bestX = c.bestX ∧ d.bestF = c.bestF
  noF : d.improved = false → A.topology = 1 ∨ A.topology = 4 → ∀ (p : Nat) (f o : List (Fl K)), p < i → fit[p]? = some f → c.lbfit[p]? = some o →
    NoWorse f o → ¬ NoWorse f c.bestF
  yes : d.improved = true → ∃ (p : Nat) (o : List (Fl K)), p < i ∧ c.xs[p]? = some d.bestX ∧ fit[p]? = some d.bestF ∧ c.lbfit[p]? = some o ∧
    NoWorse d.bestF o ∧ NoWorse d.bestF c.bestF
  min : A.topology = 1 ∨ A.topology = 4 → d.bestF.length = 1 ∧ NoWorse d.bestF c.bestF ∧
    ∀ (p : Nat) (f o : List (Fl K)), p < i → fit[p]? = some f → c.lbfit[p]? = some o → NoWorse f o → NoWorse d.bestF f

omit [IsStrictOrderedRing K] in
theorem pgKeep_step {A : Pso K} {n : Nat} {fit : List (List (Fl K))} {c : PsoVars K} (hx : c.xs.length = n) (hf : fit.length = n)
    (hl : c.lbX.length = n) (ho : c.lbfit.length = n)
    (hf1 : ∀ f ∈ fit, f.length = 1) (ho1 : ∀ f ∈ c.lbfit, f.length = 1) {i : Nat} (hin : i < n) {d : PsoVars K} (hk : PgKept A n fit c i d) :
    (pgKeep A fit d i).Sat (fun d' => PgKept A n fit c (i + 1) d') := by
  have hLX := hk.lenX
  have hLF := hk.lenF
  have ex : d.xs[i]? = some (c.xs[i]'(by omega)) := by rw [hk.xs]; exact List.getElem?_eq_getElem (by omega)
  have eo : d.lbfit[i]'(by omega) = c.lbfit[i]'(by omega) := by
    have h := (hk.rest i le_rfl).2
    rw [List.getElem?_eq_getElem (by omega), List.getElem?_eq_getElem (by omega), Option.some.injEq] at h
    exact h
  have ef1 := hf1 _ (List.getElem_mem (l := fit) (n := i) (by omega))
  have eo1 := ho1 _ (List.getElem_mem (l := c.lbfit) (n := i) (by omega))
  have gf : fit[i]? = some (fit[i]'(by omega)) := List.getElem?_eq_getElem (by omega)
  have go : c.lbfit[i]? = some (c.lbfit[i]'(by omega)) := List.getElem?_eq_getElem (by omega)
  have gx : c.xs[i]? = some (c.xs[i]'(by omega)) := List.getElem?_eq_getElem (by omega)
  have gl : c.lbX[i]? = some (c.lbX[i]'(by omega)) := List.getElem?_eq_getElem (by omega)
  unfold pgKeep
  rw [Outcome.get_of_lt (by omega), Outcome.bind_ok, Outcome.get_of_lt (by omega), Outcome.bind_ok, Outcome.get_of_lt (by omega), Outcome.bind_ok]
  simp only [eo]
  rw [Outcome.get_of_lt (by omega), Outcome.bind_ok]
  have hcmp : NoWorse (fit[i]'(by omega)) (c.lbfit[i]'(by omega)) ↔ _ := noWorse_get (List.getElem?_eq_getElem (by omega)) (List.getElem?_eq_getElem (by omega))
  by_cases hle : leF ((fit[i]'(by omega))[0]'(by omega)) ((c.lbfit[i]'(by omega))[0]'(by omega)) = true
  · have hnw := hcmp.mpr ((leF_iff _ _).mp hle)
    rw [if_pos hle, Outcome.set_of_lt (by omega), Outcome.bind_ok, Outcome.get_eq_ok_iff.mpr ex, Outcome.bind_ok, Outcome.set_of_lt (by omega), Outcome.bind_ok]
    have hdone : ∀ (p : Nat) (y f l o : List (Fl K)), p < i + 1 → c.xs[p]? = some y → fit[p]? = some f → c.lbX[p]? = some l → c.lbfit[p]? = some o →
        (NoWorse f o ∧ (d.lbX.set i (c.xs[i]'(by omega)))[p]? = some y ∧ (d.lbfit.set i (fit[i]'(by omega)))[p]? = some f) ∨
        (¬ NoWorse f o ∧ (d.lbX.set i (c.xs[i]'(by omega)))[p]? = some l ∧ (d.lbfit.set i (fit[i]'(by omega)))[p]? = some o) := by
      intro p y f l o hp h1 h2 h3 h4
      by_cases e : i = p
      · subst e
        rw [gx, Option.some.injEq] at h1
        rw [gf, Option.some.injEq] at h2
        rw [go, Option.some.injEq] at h4
        subst h1; subst h2; subst h4
        exact Or.inl ⟨hnw, by rw [List.getElem?_set_self (by omega)], by rw [List.getElem?_set_self (by omega)]⟩
      · rw [List.getElem?_set_ne e, List.getElem?_set_ne e]
        exact hk.done p y f l o (by omega) h1 h2 h3 h4
    have hrest : ∀ p : Nat, i + 1 ≤ p → (d.lbX.set i (c.xs[i]'(by omega)))[p]? = c.lbX[p]? ∧ (d.lbfit.set i (fit[i]'(by omega)))[p]? = c.lbfit[p]? := by
      intro p hp
      rw [List.getElem?_set_ne (by omega), List.getElem?_set_ne (by omega)]
      exact hk.rest p (by omega)
    unfold pgKeepBest
    by_cases ht : A.topology = 1 ∨ A.topology = 4
    · obtain ⟨m1, m2, m3⟩ := hk.min ht
      rw [if_pos ht]
      dsimp only
      rw [Outcome.get_of_lt (by omega), Outcome.bind_ok]
      have hcb : NoWorse (fit[i]'(by omega)) d.bestF ↔ _ := noWorse_get (List.getElem?_eq_getElem (by omega)) (List.getElem?_eq_getElem (by omega))
      by_cases hlb : leF ((fit[i]'(by omega))[0]'(by omega)) (d.bestF[0]'(by omega)) = true
      · have hnb := hcb.mpr ((leF_iff _ _).mp hlb)
        rw [if_pos hlb, Outcome.pure_eq, Outcome.sat_ok]
        refine ⟨hk.xs, hk.vel, hk.nb, by simpa using hLX, by simpa using hLF, hdone, hrest, fun h => absurd h (by simp), fun h => absurd h (by simp), ?_, ?_⟩
        · intro _
          exact ⟨i, _, by omega, gx, gf, go, hnw, noWorse_trans hnb m2⟩
        · intro _
          refine ⟨ef1, noWorse_trans hnb m2, ?_⟩
          intro p f o hp h1 h2 h3
          by_cases e : i = p
          · subst e
            rw [gf, Option.some.injEq] at h1
            subst h1; exact noWorse_refl ef1
          · exact noWorse_trans hnb (m3 p f o (by omega) h1 h2 h3)
      · rw [if_neg hlb, Outcome.pure_eq, Outcome.sat_ok]
        have hnb : ¬ NoWorse (fit[i]'(by omega)) d.bestF := fun h => hlb ((leF_iff _ _).mpr (hcb.mp h))
        refine ⟨hk.xs, hk.vel, hk.nb, by simpa using hLX, by simpa using hLF, hdone, hrest, hk.no, ?_, ?_, ?_⟩
        · intro him _ p f o hp h1 h2 h3
          by_cases e : i = p
          · subst e
            rw [gf, Option.some.injEq] at h1
            subst h1
            rw [← (hk.no him).2]; exact hnb
          · exact hk.noF him ht p f o (by omega) h1 h2 h3
        · intro him
          obtain ⟨p, o, hp, h⟩ := hk.yes him
          exact ⟨p, o, by omega, h⟩
        · intro _
          refine ⟨m1, m2, ?_⟩
          intro p f o hp h1 h2 h3
          by_cases e : i = p
          · subst e
            rw [gf, Option.some.injEq] at h1
            subst h1
            exact noWorse_total ef1 m1 hnb
          · exact m3 p f o (by omega) h1 h2 h3
    · rw [if_neg ht, Outcome.pure_eq, Outcome.sat_ok]
      refine ⟨hk.xs, hk.vel, hk.nb, by simpa using hLX, by simpa using hLF, hdone, hrest, hk.no, fun _ h => absurd h ht, ?_, fun h => absurd h ht⟩
      intro him
      obtain ⟨p, o, hp, h⟩ := hk.yes him
      exact ⟨p, o, by omega, h⟩
  · have hnw : ¬ NoWorse (fit[i]'(by omega)) (c.lbfit[i]'(by omega)) := fun h => hle ((leF_iff _ _).mpr (hcmp.mp h))
    rw [if_neg hle, Outcome.pure_eq, Outcome.sat_ok]
    refine ⟨hk.xs, hk.vel, hk.nb, hLX, hLF, ?_, fun p hp => hk.rest p (by omega), hk.no, ?_, ?_, ?_⟩
    · intro p y f l o hp h1 h2 h3 h4
      by_cases e : i = p
      · subst e
        rw [gf, Option.some.injEq] at h2
        rw [go, Option.some.injEq] at h4
        subst h2; subst h4
        exact Or.inr ⟨hnw, (hk.rest i le_rfl).1.trans h3, (hk.rest i le_rfl).2.trans go⟩
      · exact hk.done p y f l o (by omega) h1 h2 h3 h4
    · intro him ht p f o hp h1 h2 h3
      by_cases e : i = p
      · subst e
        rw [gf, Option.some.injEq] at h1
        rw [go, Option.some.injEq] at h2
        subst h1; subst h2
        exact absurd h3 hnw
      · exact hk.noF him ht p f o (by omega) h1 h2 h3
    · intro him
      obtain ⟨p, o, hp, h⟩ := hk.yes him
      exact ⟨p, o, by omega, h⟩
    · intro ht
      obtain ⟨m1, m2, m3⟩ := hk.min ht
      refine ⟨m1, m2, ?_⟩
      intro p f o hp h1 h2 h3
      by_cases e : i = p
      · subst e
        rw [gf, Option.some.injEq] at h1
        rw [go, Option.some.injEq] at h2
        subst h1; subst h2
        exact absurd h3 hnw
      · exact m3 p f o (by omega) h1 h2 h3

omit [IsStrictOrderedRing K] in
theorem pgKeep_all {A : Pso K} {n : Nat} {fit : List (List (Fl K))} {c : PsoVars K} (hx : c.xs.length = n) (hf : fit.length = n)
    (hl : c.lbX.length = n) (ho : c.lbfit.length = n) (him : c.improved = false)
    (hf1 : ∀ f ∈ fit, f.length = 1) (ho1 : ∀ f ∈ c.lbfit, f.length = 1) (hb : A.topology = 1 ∨ A.topology = 4 → c.bestF.length = 1) :
    ((List.range n).foldlM (pgKeep A fit) c).Sat (fun d => PgKept A n fit c n d) :=
  Outcome.range_sat (f := pgKeep A fit) (fun i d => PgKept A n fit c i d) n c
    ⟨rfl, rfl, rfl, hl, ho, fun p _ _ _ _ h => absurd h (Nat.not_lt_zero p), fun _ _ => ⟨rfl, rfl⟩, fun _ => ⟨rfl, rfl⟩,
      fun _ _ p _ _ h => absurd h (Nat.not_lt_zero p), fun h => absurd (him.symm.trans h) (by decide), fun h => ⟨hb h, noWorse_refl (hb h), fun p _ _ h => absurd h (Nat.not_lt_zero p)⟩⟩
    (fun _ _ hin hk => pgKeep_step hx hf hl ho hf1 ho1 hin hk)

/-! ### A generation -/

/-- What holds between generations -/
structure PgInv (Clean : Prop) (P : AProb K) (A : Pso K) (n : Nat) (s0 : St K σ) (t : Nat) (c : PsoVars K) (new : List (ECall K)) (s : St K σ) : Prop where
  tr : Tracked P s0 new s
  pop : s.pop = s0.pop
  cnt : new.length = t
  ready : Ready P A n c
  leadF : A.topology = 1 ∨ A.topology = 4 → c.bestF.length = 1
  box : P.info.stochastic = true → ∀ x ∈ c.lbX, InBox P.lb P.ub 0 x
  is : P.info.stochastic = false → A.topology = 1 ∨ A.topology = 4 →
    ∃ q : Nat, (A.topology = 1 → c.lbX[q]? = some c.bestX) ∧ c.lbfit[q]? = some c.bestF
  min : P.info.stochastic = false → Clean → A.topology = 1 ∨ A.topology = 4 → ∀ f ∈ c.lbfit, NoWorse c.bestF f

omit [Field K] [LinearOrder K] [IsStrictOrderedRing K] in
theorem twice_length (batch : Bool) {n : Nat} {xs fs ls os : List (List (Fl K))} (h1 : xs.length = n) (h2 : fs.length = n) (h3 : ls.length = n)
    (h4 : os.length = n) : (twice batch xs fs ls os).length = n * 2 := by
  unfold twice
  split
  · simp [asCalls, h1, h2, h3, h4]; omega
  · rw [List.length_flatMap]
    have : (fun q : (List (Fl K) × List (Fl K)) × List (Fl K) × List (Fl K) => (asCalls [q.1, q.2]).length) = fun _ => 2 := by
      funext q; rfl
    rw [this, List.map_const', List.sum_replicate]
    simp [h1, h2, h3, h4]

omit [Field K] [LinearOrder K] [IsStrictOrderedRing K] in
theorem pairs_get {α β : Type} (g : α → β × β) (d : List α) : ∀ i : Nat,
    (d.flatMap (fun q => [(g q).1, (g q).2]))[2 * i]? = d[i]?.map (fun q => (g q).1) ∧
    (d.flatMap (fun q => [(g q).1, (g q).2]))[2 * i + 1]? = d[i]?.map (fun q => (g q).2) := by
  induction d with
  | nil => intro i; simp
  | cons a d ih =>
    intro i
    cases i with
    | zero => exact ⟨rfl, rfl⟩
    | succ i =>
      obtain ⟨h1, h2⟩ := ih i
      exact ⟨h1, h2⟩

omit [Field K] [LinearOrder K] [IsStrictOrderedRing K] in
theorem twice_get (batch : Bool) {n i : Nat} {xs fs ls os : List (List (Fl K))} {y g l o : List (Fl K)} (h1 : xs.length = n) (h2 : fs.length = n)
    (_ : ls.length = n) (_ : os.length = n) (ax : xs[i]? = some y) (af : fs[i]? = some g) (al : ls[i]? = some l) (ao : os[i]? = some o) :
    (twice batch xs fs ls os)[if batch then i else 2 * i]? = some (y, .ok g) ∧
    (twice batch xs fs ls os)[if batch then n + i else 2 * i + 1]? = some (l, .ok o) := by
  have z1 := List.getElem?_zip_eq_some.mpr (show xs[i]? = some (y, g).1 ∧ fs[i]? = some (y, g).2 from ⟨ax, af⟩)
  have z2 := List.getElem?_zip_eq_some.mpr (show ls[i]? = some (l, o).1 ∧ os[i]? = some (l, o).2 from ⟨al, ao⟩)
  have hzl : (asCalls (xs.zip fs)).length = n := by simp [asCalls, h1, h2]
  have hin : i < n := by rw [← h1]; exact (List.getElem?_eq_some_iff.mp ax).1
  unfold twice
  cases batch with
  | true =>
    simp only [if_true]
    rw [List.getElem?_append_left (by omega), List.getElem?_append_right (by omega), hzl, Nat.add_sub_cancel_left]
    unfold asCalls
    rw [List.getElem?_map, List.getElem?_map, z1, z2]
    exact ⟨rfl, rfl⟩
  | false =>
    have z3 := List.getElem?_zip_eq_some.mpr (show (xs.zip fs)[i]? = some ((y, g), (l, o)).1 ∧ (ls.zip os)[i]? = some ((y, g), (l, o)).2 from ⟨z1, z2⟩)
    obtain ⟨p1, p2⟩ := pairs_get (fun q : (List (Fl K) × List (Fl K)) × List (Fl K) × List (Fl K) =>
      (((q.1.1, .ok q.1.2), (q.2.1, .ok q.2.2)) : ECall K × ECall K)) ((xs.zip fs).zip (ls.zip os)) i
    rw [z3] at p1 p2
    exact ⟨p1, p2⟩

/-- the variables after the evaluations -/
theorem wp_pgEvals {v : Env K σ} {rep : K → Prop} (hg : v.g.Lawful rep) {P : AProb K} {bfe : Option (Batch K)} (hok : ∀ b, bfe = some b → BatchOk P b)
    (hnx : 0 < P.info.nx) (hnobj : P.info.nobj = 1) (hnc : P.info.nc = 0) {s0 s : St K σ} {n : Nat} (hn : 0 < n) {c : PsoVars K}
    (hx : Vecs n P.info.nx c.xs) (hl : Vecs n P.info.nx c.lbX) (hF : c.lbfit.length = n) (hF1 : ∀ f ∈ c.lbfit, f.length = 1)
    (hxB : ∀ x ∈ c.xs, InBox P.lb P.ub 0 x) (hlB : P.info.stochastic = true → ∀ x ∈ c.lbX, InBox P.lb P.ub 0 x)
    {new : List (ECall K)} (ht : Tracked P s0 new s) :
    wp (pgEvals v P bfe n c) (fun r s' => ∃ (os : List (List (Fl K))) (bx bf : List (Fl K)) (gen : List (ECall K)),
      r.2 = { c with lbfit := os, bestX := bx, bestF := bf } ∧ r.1.length = n ∧ os.length = n ∧
      (∀ f ∈ r.1, f.length = 1) ∧ (∀ f ∈ os, f.length = 1) ∧ s'.pop = s.pop ∧ Tracked P s0 (new ++ gen) s' ∧
      (P.info.stochastic = false → os = c.lbfit ∧ bx = c.bestX ∧ bf = c.bestF ∧ gen = asCalls (c.xs.zip r.1)) ∧
      (P.info.stochastic = true → gen = twice bfe.isSome c.xs r.1 c.lbX os ∧ (∃ q : Nat, c.xs[q]? = some bx ∧ r.1[q]? = some bf) ∧
        ∀ f ∈ r.1, NoWorse bf f)) (MoFailed (InBox P.lb P.ub 0) P v.op bfe s0) s := by
  have hnf : P.info.nf = 1 := by simp only [Info.nf, Info.nc] at *; omega
  unfold pgEvals
  by_cases hs : P.info.stochastic = true
  · rw [if_pos hs, wp_bind, wp_onRng]
    refine Gen.wp_drawNat hg (by omega) ?_
    intro a e _ _
    rw [wp_bind]
    refine wp_pgFitTwo (s := { s with e := e }) hok hnx (by omega) hnc hx hl hxB (hlB hs) (tracked_rng ht e) ?_ (fun _ _ h => h)
    intro fs os s' f1 o1 f2 o2 hp _ ht'
    rw [wp_bind]
    obtain ⟨⟨bf, bx⟩, hb, hq, hmin⟩ := pgLead_ok hn hx.len f1 (fun f hf => by rw [← hnf]; exact f2 f hf)
    rw [hb, wp_lift_ok, wp_pure]
    exact ⟨os, bx, bf, _, rfl, f1, o1, fun f hf => by rw [← hnf]; exact f2 f hf, fun f hf => by rw [← hnf]; exact o2 f hf, hp, ht',
      fun h => absurd (hs.symm.trans h) (by decide), fun _ => ⟨rfl, hq, hmin⟩⟩
  · rw [if_neg hs, wp_bind]
    refine wp_pgFit hok hnx (by omega) hnc hx hxB ht ?_ (fun _ _ h => h)
    intro fs s' f1 f2 hp _ ht'
    rw [wp_pure]
    exact ⟨c.lbfit, c.bestX, c.bestF, _, rfl, f1, hF, fun f hf => by rw [← hnf]; exact f2 f hf, hF1, hp, ht', fun _ => ⟨rfl, rfl, rfl, rfl⟩,
      fun h => absurd h hs⟩

theorem wp_pgGen {Clean : Prop} {v : Env K σ} {rep : K → Prop} (hg : v.g.Lawful rep) (hop : PsoOps v) {P : AProb K} (hP : FiniteBox P)
    (hnobj : P.info.nobj = 1) (hnc : P.info.nc = 0) {A : Pso K} (hA : PsoPars A) {bfe : Option (Batch K)} (hok : ∀ b, bfe = some b → BatchOk P b)
    {n : Nat} (hn : 0 < n) {s0 : St K σ} {m k g : Nat} (hm : m = n * (if P.info.stochastic = true then 2 else 1)) {c : PsoVars K}
    {new : List (ECall K)} {s : St K σ} (hi : PgInv Clean P A n s0 (k * m) c new s) :
    wp (pgGen v P A bfe n g c) (fun r s' => r.2 = false ∧ PgGeneration Clean v P A bfe.isSome n (flock c s.evs) (flock r.1 s'.evs) ∧
      ∃ new', PgInv Clean P A n s0 ((k + 1) * m) r.1 new' s') (MoFailed (InBox P.lb P.ub 0) P v.op bfe s0) s := by
  have hnf : P.info.nf = 1 := by simp only [Info.nf, Info.nc] at *; omega
  have hnx : 0 < P.info.nx := by
    rw [hP.nx]; exact List.length_pos_of_ne_nil hP.bounds.nonempty
  have hR := hi.ready
  unfold pgGen
  rw [wp_bind, wp_onRng]
  refine (wp_pgSteer hg hop hA hR s.evs s.e).mono ?_ (fun _ _ h => h)
  rintro c1 e ⟨vel1, bx1, rfl, hbx1, hV1, hsteer⟩
  rw [wp_bind]
  obtain ⟨c2, hc2, xs2, vel2, rfl, hX2, hV2, hbox2, hfly⟩ := pgAdvance_all (A := A) hop hP hA
    (c := { c with vel := vel1, bestX := bx1 }) hR.xs hV1
  dsimp only at hfly
  rw [hc2, wp_lift_ok, wp_bind]
  refine (wp_pgEvals (s := { s with e := e }) (c := { c with xs := xs2, vel := vel2, bestX := bx1 }) hg hok hnx hnobj hnc hn hX2 hR.lbX hR.fitL hR.fit1
    hbox2 hi.box (tracked_rng hi.tr e)).mono ?_ (fun _ _ h => h)
  rintro ⟨fs, c3⟩ s3 ⟨os, bx3, bf3, gen, rfl, fl, ol, f1, o1, hp3, ht3, hns, hst⟩
  dsimp only at fl f1 hp3 hns hst ⊢
  have hbf1 : A.topology = 1 ∨ A.topology = 4 → bf3.length = 1 := by
    intro h
    cases hs : P.info.stochastic with
    | false => rw [(hns hs).2.2.1]; exact hi.leadF h
    | true =>
      obtain ⟨_, ⟨q, _, hq⟩, _⟩ := hst hs
      exact f1 _ (List.mem_of_getElem? hq)
  obtain ⟨d, hd, hk⟩ := pgKeep_all (A := A) (n := n) (fit := fs)
    (c := { c with xs := xs2, vel := vel2, lbfit := os, bestX := bx3, bestF := bf3, improved := false })
    hX2.len fl hR.lbX.len ol rfl f1 o1 hbf1
  rw [wp_bind, hd, wp_lift_ok, wp_bind]
  obtain ⟨kx, kv, kn, klX, klF, kdone, krest, kno, knoF, kyes, kmin⟩ := hk
  dsimp only at kx kv kn kdone krest kno knoF kyes kmin
  have hll := hR.lbX.len
  have hx2l := hX2.len
  -- the own bests
  have hrow : ∀ p : Nat, p < n → ∃ y f l o : List (Fl K), xs2[p]? = some y ∧ fs[p]? = some f ∧ c.lbX[p]? = some l ∧ os[p]? = some o ∧
      ((NoWorse f o ∧ d.lbX[p]? = some y ∧ d.lbfit[p]? = some f) ∨ (¬ NoWorse f o ∧ d.lbX[p]? = some l ∧ d.lbfit[p]? = some o)) := by
    intro p hp
    have a1 : xs2[p]? = some (xs2[p]'(by omega)) := List.getElem?_eq_getElem (by omega)
    have a2 : fs[p]? = some (fs[p]'(by omega)) := List.getElem?_eq_getElem (by omega)
    have a3 : c.lbX[p]? = some (c.lbX[p]'(by omega)) := List.getElem?_eq_getElem (by omega)
    have a4 : os[p]? = some (os[p]'(by omega)) := List.getElem?_eq_getElem (by omega)
    exact ⟨_, _, _, _, a1, a2, a3, a4, kdone p _ _ _ _ hp a1 a2 a3 a4⟩
  have hlt : ∀ {l : List (List (Fl K))} {p : Nat} {y : List (Fl K)}, l.length = n → l[p]? = some y → p < n := by
    intro l p y h h'
    have := (List.getElem?_eq_some_iff.mp h').1
    omega
  have hlbX : ∀ z ∈ d.lbX, z ∈ xs2 ∨ z ∈ c.lbX := by
    intro z hz
    obtain ⟨p, hp⟩ := List.mem_iff_getElem?.mp hz
    obtain ⟨y, f, l, o, a1, a2, a3, a4, h⟩ := hrow p (hlt klX hp)
    rcases h with ⟨_, h, _⟩ | ⟨_, h, _⟩
    · rw [h, Option.some.injEq] at hp; subst hp; exact Or.inl (List.mem_of_getElem? a1)
    · rw [h, Option.some.injEq] at hp; subst hp; exact Or.inr (List.mem_of_getElem? a3)
  have hlbF : ∀ z ∈ d.lbfit, z ∈ fs ∨ z ∈ os := by
    intro z hz
    obtain ⟨p, hp⟩ := List.mem_iff_getElem?.mp hz
    obtain ⟨y, f, l, o, a1, a2, a3, a4, h⟩ := hrow p (hlt klF hp)
    rcases h with ⟨_, _, h⟩ | ⟨_, _, h⟩
    · rw [h, Option.some.injEq] at hp; subst hp; exact Or.inl (List.mem_of_getElem? a2)
    · rw [h, Option.some.injEq] at hp; subst hp; exact Or.inr (List.mem_of_getElem? a4)
  have hVl : Vecs n P.info.nx d.lbX := by
    refine ⟨klX, fun z hz => ?_, fun z hz => ?_⟩
    · rcases hlbX z hz with h | h
      · exact hX2.dim z h
      · exact hR.lbX.dim z h
    · rcases hlbX z hz with h | h
      · exact hX2.fin z h
      · exact hR.lbX.fin z h
  have hlead1 : A.topology = 1 → d.bestX.length = P.info.nx ∧ AllFin d.bestX := by
    intro h
    cases him : d.improved with
    | true =>
      obtain ⟨p, o, _, h', _⟩ := kyes him
      have hmem := List.mem_of_getElem? h'
      exact ⟨hX2.dim _ hmem, hX2.fin _ hmem⟩
    | false =>
      rw [(kno him).1]
      cases hs : P.info.stochastic with
      | false => rw [(hns hs).2.1, hbx1 h]; exact hR.lead h
      | true =>
        obtain ⟨_, ⟨q, hq, _⟩, _⟩ := hst hs
        have hmem := List.mem_of_getElem? hq
        exact ⟨hX2.dim _ hmem, hX2.fin _ hmem⟩
  -- the leader
  have his : P.info.stochastic = false → A.topology = 1 ∨ A.topology = 4 →
      ∃ q : Nat, (A.topology = 1 → d.lbX[q]? = some d.bestX) ∧ d.lbfit[q]? = some d.bestF := by
    intro hs ht
    obtain ⟨e1, e2, e3, _⟩ := hns hs
    cases him : d.improved with
    | true =>
      obtain ⟨p, o, hp, h1, h2, h3, h4, _⟩ := kyes him
      obtain ⟨y, f, l, o', a1, a2, a3, a4, h⟩ := hrow p hp
      rw [h1, Option.some.injEq] at a1
      rw [h2, Option.some.injEq] at a2
      rw [h3, Option.some.injEq] at a4
      subst a1; subst a2; subst a4
      rcases h with ⟨_, g1, g2⟩ | ⟨g, _⟩
      · exact ⟨p, fun _ => g1, g2⟩
      · exact absurd h4 g
    | false =>
      obtain ⟨q, hq1, hq2⟩ := hi.is hs ht
      obtain ⟨g1, g2⟩ := kno him
      obtain ⟨y, f, l, o', a1, a2, a3, a4, h⟩ := hrow q (hlt hR.fitL hq2)
      rw [e1, hq2, Option.some.injEq] at a4
      subst a4
      rcases h with ⟨g, _, _⟩ | ⟨_, g3, g4⟩
      · have := knoF him ht q f c.bestF (hlt hR.fitL hq2) a2 (by rw [e1]; exact hq2) g
        rw [e3] at this
        exact absurd g this
      · refine ⟨q, fun h => ?_, ?_⟩
        · rw [g3, g1, e2, hbx1 h, ← a3]; exact hq1 h
        · rw [g4, g2, e3]
  have hmin : P.info.stochastic = false → Clean → A.topology = 1 ∨ A.topology = 4 → ∀ f ∈ d.lbfit, NoWorse d.bestF f := by
    intro hs hc ht z hz
    obtain ⟨e1, e2, e3, _⟩ := hns hs
    obtain ⟨_, m2, m3⟩ := kmin ht
    obtain ⟨p, hp⟩ := List.mem_iff_getElem?.mp hz
    obtain ⟨y, f, l, o, a1, a2, a3, a4, h⟩ := hrow p (hlt klF hp)
    rcases h with ⟨g, _, h⟩ | ⟨_, _, h⟩
    · rw [h, Option.some.injEq] at hp; subst hp
      exact m3 p f o (hlt fl a2) a2 a4 g
    · rw [h, Option.some.injEq] at hp; subst hp
      rw [e3] at m2
      exact noWorse_trans m2 (hi.min hs hc ht o (by rw [e1] at a4; exact List.mem_of_getElem? a4))
  have hled : Led Clean P A (flock d s3.evs) fs := by
    refine ⟨fun hs ht => ?_, fun hs ht => ?_⟩
    · obtain ⟨q, h1, h2⟩ := his hs (Or.inl ht)
      exact ⟨⟨q, h1 ht, h2⟩, fun hc => hmin hs hc (Or.inl ht)⟩
    · obtain ⟨_, ⟨q, hq1, hq2⟩, hm'⟩ := hst hs
      obtain ⟨_, m2, _⟩ := kmin (Or.inl ht)
      cases him : d.improved with
      | true =>
        obtain ⟨p, o, hp, h1, h2, h3, h4, h5⟩ := kyes him
        exact ⟨⟨p, by show d.xs[p]? = _; rw [kx]; exact h1, h2⟩, fun f hf => noWorse_trans h5 (hm' f hf)⟩
      | false =>
        obtain ⟨g1, g2⟩ := kno him
        refine ⟨⟨q, ?_, ?_⟩, fun f hf => ?_⟩
        · show d.xs[q]? = some d.bestX
          rw [kx, g1]; exact hq1
        · show fs[q]? = some d.bestF
          rw [g2]; exact hq2
        · show NoWorse d.bestF f
          rw [g2]; exact hm' f hf
  -- the counts
  have hevs : s3.evs = s.evs ++ gen := by rw [ht3.evs, hi.tr.evs, List.append_assoc]
  have hgl : gen.length = m := by
    cases hs : P.info.stochastic with
    | false =>
      rw [(hns hs).2.2.2, hm, hs]
      simp [asCalls, hx2l, fl]
    | true =>
      rw [(hst hs).1, hm, hs, if_pos rfl]
      exact twice_length _ hx2l fl hll ol
  have hcnt : (new ++ gen).length = (k + 1) * m := by rw [List.length_append, hi.cnt, hgl, Nat.add_mul, Nat.one_mul]
  have hasc : Assessed P bfe.isSome (flock c s.evs) (flock d s3.evs) fs os := by
    refine ⟨fun hs => ⟨(hns hs).1, ?_⟩, fun hs hb => ?_, fun hs hb => ?_⟩
    · show s3.evs = s.evs ++ asCalls (d.xs.zip fs)
      rw [hevs, (hns hs).2.2.2, kx]
    · show s3.evs = s.evs ++ (asCalls (d.xs.zip fs) ++ asCalls (c.lbX.zip os))
      rw [hevs, (hst hs).1, kx]; unfold twice; rw [if_pos hb]
    · show s3.evs = s.evs ++ ((d.xs.zip fs).zip (c.lbX.zip os)).flatMap _
      rw [hevs, (hst hs).1, kx]; unfold twice; rw [hb]; rfl
  have hrem : Remembered (flock c s.evs) (flock d s3.evs) fs os := by
    intro p y f l o h1 h2 h3 h4
    exact kdone p y f l o (hlt fl h2) (by rw [← kx]; exact h1) h2 h3 h4
  have hflew : ∀ (p : Nat) (y w : List (Fl K)), (flock d s3.evs).xs[p]? = some y → (flock d s3.evs).vel[p]? = some w →
      Flew v P A (flock c s.evs) p y w := by
    intro p y w h1 h2
    obtain ⟨x, u, g1, g2, g3⟩ := hfly p y w (by rw [← kx]; exact h1) (by rw [← kv]; exact h2)
    exact ⟨x, u, g1, hsteer p u g2, g3⟩
  have hyes : d.improved = true → (P.info.stochastic = false → Clean → A.topology = 4 → ∃ f ∈ fs, ∀ g ∈ c.lbfit, NoWorse f g) ∧
      (P.info.stochastic = true → ∃ (p : Nat) (f o : List (Fl K)), fs[p]? = some f ∧ os[p]? = some o ∧ NoWorse f o ∧ ∀ g ∈ fs, NoWorse f g) := by
    intro him
    obtain ⟨p, o, hp, h1, h2, h3, h4, h5⟩ := kyes him
    refine ⟨fun hs hc ht => ⟨d.bestF, List.mem_of_getElem? h2, fun g hg' => ?_⟩, fun hs => ⟨p, d.bestF, o, h2, h3, h4, fun g hg' => ?_⟩⟩
    · rw [(hns hs).2.2.1] at h5
      exact noWorse_trans h5 (hi.min hs hc (Or.inr ht) g hg')
    · exact noWorse_trans h5 ((hst hs).2.2 g hg')
  have hno : d.improved = false → A.topology = 4 → (P.info.stochastic = false → ∀ f ∈ fs, ∃ g ∈ c.lbfit, ¬ NoWorse f g) ∧
      (P.info.stochastic = true → ∀ (p : Nat) (f o : List (Fl K)), fs[p]? = some f → os[p]? = some o → (∀ g ∈ fs, NoWorse f g) → ¬ NoWorse f o) := by
    intro him ht
    refine ⟨fun hs f hf => ?_, fun hs p f o h1 h2 h3 h4 => ?_⟩
    · obtain ⟨p, hp⟩ := List.mem_iff_getElem?.mp hf
      obtain ⟨y, f', l, o, a1, a2, a3, a4, _⟩ := hrow p (hlt fl hp)
      rw [hp, Option.some.injEq] at a2
      subst a2
      by_cases hw : NoWorse f o
      · have := knoF him (Or.inr ht) p f o (hlt fl hp) hp a4 hw
        rw [(hns hs).2.2.1] at this
        obtain ⟨q, _, hq⟩ := hi.is hs (Or.inr ht)
        exact ⟨c.bestF, List.mem_of_getElem? hq, this⟩
      · exact ⟨o, by rw [(hns hs).1] at a4; exact List.mem_of_getElem? a4, hw⟩
    · have := knoF him (Or.inr ht) p f o (hlt fl h1) h1 h2 h4
      obtain ⟨_, ⟨q, _, hq⟩, _⟩ := hst hs
      exact this (h3 _ (List.mem_of_getElem? hq))
  have hboxd : P.info.stochastic = true → ∀ x ∈ d.lbX, InBox P.lb P.ub 0 x := by
    intro hs x hx
    rcases hlbX x hx with h | h
    · exact hbox2 x h
    · exact hi.box hs x h
  have hfit1 : ∀ f ∈ d.lbfit, f.length = 1 := by
    intro f hf
    rcases hlbF f hf with h | h
    · exact f1 f h
    · exact o1 f h
  have hdx : Vecs n P.info.nx d.xs := by rw [kx]; exact hX2
  have hdv : Vecs n P.info.nx d.vel := by rw [kv]; exact hV2
  unfold psoRewire
  by_cases hr : A.topology = 4 ∧ d.improved = false
  · rw [if_pos hr, wp_bind, wp_onRng]
    refine (wp_psoRandom hg hn hA.param s3.e (E := fun e p => MoFailed (InBox P.lb P.ub 0) P v.op bfe s0 e { s3 with e := p })).mono ?_ (fun _ _ h => h)
    rintro nb e' ⟨g1, g2, g3⟩
    have hRg := randomGraph_of g1 g2 g3
    rw [wp_pure, wp_pure]
    refine ⟨rfl, ⟨hdx.len, hdv.len, klX, klF, fs, os, fl, ol, f1, o1, hflew, hasc, hrem, hled, ?_⟩, new ++ gen,
      tracked_rng ht3 e', hp3.trans hi.pop, hcnt, ⟨hdx, hdv, hVl, klF, hfit1, linked_random hRg, hlead1⟩, fun h => (kmin h).1, hboxd, his, hmin⟩
    exact ⟨fun h => absurd hr.1 h, fun _ => Or.inr hRg, fun hs _ _ => Or.inr ⟨hRg, (hno hr.2 hr.1).1 hs⟩, fun hs _ => Or.inr ⟨hRg, (hno hr.2 hr.1).2 hs⟩⟩
  · rw [if_neg hr, wp_pure, wp_pure]
    refine ⟨rfl, ⟨hdx.len, hdv.len, klX, klF, fs, os, fl, ol, f1, o1, hflew, hasc, hrem, hled, ?_⟩, new ++ gen,
      ht3, hp3.trans hi.pop, hcnt, ⟨hdx, hdv, hVl, klF, hfit1, by rw [kn]; exact hR.nb, hlead1⟩, fun h => (kmin h).1, hboxd, his, hmin⟩
    have him : A.topology = 4 → d.improved = true := fun h => by by_contra h'; exact hr ⟨h, by simpa using h'⟩
    exact ⟨fun _ => kn, fun _ => Or.inl kn, fun hs hc h => Or.inl ⟨kn, (hyes (him h)).1 hs hc h⟩, fun hs h => Or.inl ⟨kn, (hyes (him h)).2 hs⟩⟩

end

end Verif.Props
