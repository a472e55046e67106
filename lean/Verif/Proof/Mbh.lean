import Verif.Model.Mbh
import Verif.Proof.Annealing
import Verif.Props.Sga

/-!
# Helper lemmas for `Verif.Props.Mbh`
-/

set_option autoImplicit false

namespace Verif.Props

open Verif Run Prob Pop Alg

variable {K σ : Type} [Field K] [LinearOrder K]

/-- the calls of the fitness function between two states were all for points with `B` -/
def EvsBy (B : List (Fl K) → Prop) (s s' : St K σ) : Prop := ∃ new, s'.evs = s.evs ++ new ∧ ∀ p ∈ new, B p.1

theorem evsBy_refl {B : List (Fl K) → Prop} (s : St K σ) : EvsBy B s s := ⟨[], by simp, by simp⟩

theorem evsBy_trans {B : List (Fl K) → Prop} {a b c : St K σ} (h : EvsBy B a b) (h' : EvsBy B b c) : EvsBy B a c := by
  obtain ⟨n, e1, h1⟩ := h
  obtain ⟨m, e2, h2⟩ := h'
  refine ⟨n ++ m, by rw [e2, e1, List.append_assoc], fun p hp => ?_⟩
  rcases List.mem_append.mp hp with hp | hp
  · exact h1 p hp
  · exact h2 p hp

theorem evsBy_of_tracked {B : List (Fl K) → Prop} {P : AProb K} {s0 s : St K σ} {new : List (ECall K)} (h : TrackedBy B P s0 new s) :
    EvsBy B s0 s := ⟨new, h.evs, h.box⟩

theorem evsBy_of_failed {B : List (Fl K) → Prop} {P : AProb K} {s0 s : St K σ} {e : Exn} (h : FailedBy B P s0 e s) : EvsBy B s0 s := by
  obtain ⟨new, h1, h2, _⟩ := h
  exact ⟨new, h1, h2⟩

/-- The inner algorithm, whatever it does: from a sound population it returns a sound population of the same size for the
same problem, throws, or (if `N`) runs forever; it evaluates only points with `B`. All objective vectors have `F`. -/
def InnerOk (N : Prop) (B F : List (Fl K) → Prop) (P : AProb K) (inner : Run (St K σ) Unit) : Prop :=
  ∀ s : St K σ, Inv P.info s.pop → (∀ f ∈ s.pop.f, F f) →
    wpn N inner (fun _ s' => Inv P.info s'.pop ∧ s'.pop.id.length = s.pop.id.length ∧ s'.pop.tol = s.pop.tol ∧ EvsBy B s s' ∧
      ∀ f ∈ s'.pop.f, F f) (fun _ s' => EvsBy B s s') s

/-- a sound population of `NP` individuals -/
structure Sized (F : List (Fl K) → Prop) (P : AProb K) (NP : Nat) (tol : List (Fl K)) (p : Pop.State K) : Prop where
  inv : Inv P.info p
  len : p.id.length = NP
  tol : p.tol = tol
  vals : ∀ f ∈ p.f, F f

theorem wp_mbhPoint {v : Env K σ} {P : AProb K} {rep : K → Prop} (hg : v.g.Lawful rep) (hP : SaneBounds P.lb P.ub P.nix)
    (hnx : P.info.nx = P.lb.length) {pv x : List (Fl K)} (hpv : pv.length = P.info.nx) (hx : x.length = P.info.nx) {s : σ}
    {Q : List (Fl K) → σ → Prop} {E : Exn → σ → Prop} (hq : ∀ y s', InBox P.lb P.ub 0 y → Q y s') (he : ∀ e s', E e s') :
    wp ((List.range P.info.nx).foldlM (mbhGene v P pv x) (List.replicate P.info.nx (.fin 0))) Q E s := by
  refine (wp_range (fun t (y : List (Fl K)) _ => y.length = P.info.nx ∧ ∀ (k : Nat) (l u w : Fl K), k < t → P.lb[k]? = some l →
    P.ub[k]? = some u → y[k]? = some w → l ≤ w ∧ w ≤ u) P.info.nx _ s ⟨by simp, fun _ _ _ _ h => absurd h (by omega)⟩ ?_).mono ?_
      (fun (e : Exn) s' (h : E e s') => h)
  · rintro t y s' ht ⟨hl, hy⟩
    have h1 : t < P.lb.length := by omega
    have h2 : t < P.ub.length := by rw [← hP.len]; exact h1
    have gl := List.getElem?_eq_getElem h1
    have gu := List.getElem?_eq_getElem h2
    obtain ⟨nl, nu, _⟩ := hP.ordered t _ _ gl gu
    unfold mbhGene
    rw [wp_bind, wp_lift_get (by omega), wp_bind, wp_lift_get (by omega), wp_bind, wp_lift_get h1, wp_bind, wp_lift_get h2, wp_bind]
    refine wp_uniformAny hg _ _ ?_ (fun _ => he _ _)
    intro a b w s'' e1 e2 h3 h4
    rw [wp_lift_set (by omega)]
    refine ⟨by simpa using hl, ?_⟩
    intro k l u w' hk hl' hu' hw'
    rw [List.getElem?_set] at hw'
    by_cases e : t = k
    · subst e
      rw [if_pos rfl, if_pos (by omega)] at hw'
      rw [gl] at hl'; rw [gu] at hu'
      cases hl'; cases hu'; cases hw'
      exact ⟨(stdMax_ge nl e1).trans (by simpa using h3), le_trans (by simpa using h4) (stdMin_le nu e2)⟩
    · rw [if_neg e] at hw'
      exact hy k l u w' (by omega) hl' hu' hw'
  · rintro y s' ⟨hl, hy⟩
    refine hq y s' (inBox0 (hl.trans hnx) (fun k l u w h1 h2 h3 => hy k l u w ?_ h1 h2 h3))
    have := (List.getElem?_eq_some_iff.mp h1).1
    omega

variable [IsStrictOrderedRing K]
variable {N : Prop} {B F : List (Fl K) → Prop} {v : Env K σ} {P : AProb K} {rep : K → Prop}

theorem wp_mbhPerturb (hg : v.g.Lawful rep) (hP : SaneBounds P.lb P.ub P.nix) (hnx : P.info.nx = P.lb.length) (hnobj : P.info.nobj = 1)
    (hB : ∀ x, InBox P.lb P.ub 0 x → B x) (hF : ∀ h x f, P.fit h x = .ok f → F f) {pv : List (Fl K)} (hpv : pv.length = P.info.nx) {s : St K σ} (hi : Inv P.info s.pop)
    (hv : ∀ f ∈ s.pop.f, F f) :
    wp ((List.range s.pop.id.length).foldlM (mbhPerturbOne v P pv) ()) (fun _ s' => (∃ new, TrackedBy B P s new s') ∧ ∀ f ∈ s'.pop.f, F f)
      (fun _ s' => EvsBy B s s') s := by
  have hnx0 : 0 < P.info.nx := by rw [hnx]; exact List.length_pos_iff.mpr hP.nonempty
  refine wp_range (fun _ _ s' => (∃ new, TrackedBy B P s new s') ∧ ∀ f ∈ s'.pop.f, F f) _ () s ⟨⟨[], tracked_refl hi⟩, hv⟩ ?_
  rintro j _ s' hj ⟨⟨new, ht⟩, hv'⟩
  have hl : s'.pop.id.length = s.pop.id.length := by rw [ht.id]
  have hx : j < s'.pop.x.length := by rw [ht.inv.wf.xs]; omega
  unfold mbhPerturbOne
  rw [wp_bind, wp_get', wp_bind, wp_lift_get hx, wp_bind, wp_onRng]
  refine wp_mbhPoint hg hP hnx hpv (ht.inv.wf.dimX _ (List.getElem_mem hx)) ?_ (fun e s'' => evsBy_of_tracked (tracked_rng ht _))
  intro y e hy
  rw [wp_bind]
  have hyl : y.length = P.info.nx := by rw [hnx]; exact hy.1
  refine wp_eval_by hyl (tracked_rng ht e) (hB y hy) ?_ (fun e s'' h => evsBy_of_failed h)
  intro f s1 hf hp _ ht1
  refine wp_setXF_tracked hnx0 (by omega) ht1 (by rw [hp]; exact hl ▸ hj) hyl hf ?_ (fun e s'' h => evsBy_of_failed h)
  intro s2 ht2 _ _ h2 _
  refine ⟨⟨_, ht2⟩, fun g hg => ?_⟩
  rw [h2] at hg
  rcases List.mem_or_eq_of_mem_set hg with hg | rfl
  · rw [hp] at hg; exact hv' g hg
  · obtain ⟨h, hh⟩ := ht1.user _ (List.mem_append_right _ (List.mem_singleton_self _))
    exact hF h y g hh.symm

theorem wp_mbhReset (hP : SaneBounds P.lb P.ub P.nix) (hnx : P.info.nx = P.lb.length) (hnobj : P.info.nobj = 1)
    {NP : Nat} {tol : List (Fl K)} {old : Pop.State K} (ho : Sized F P NP tol old) {s : St K σ} (hi : Sized F P NP tol s.pop) :
    wp ((List.range NP).foldlM (mbhResetOne v P old) ())
      (fun _ s' => Sized F P NP tol s'.pop ∧ EvsBy B s s' ∧ s'.pop.x = old.x ∧ s'.pop.f = old.f)
      (fun _ s' => EvsBy B s s') s := by
  have hnx0 : 0 < P.info.nx := by rw [hnx]; exact List.length_pos_iff.mpr hP.nonempty
  have lx : s.pop.x.length = NP := by rw [hi.inv.wf.xs, hi.len]
  have lf : s.pop.f.length = NP := by rw [hi.inv.wf.fs, hi.len]
  have ox : old.x.length = NP := by rw [ho.inv.wf.xs, ho.len]
  have of : old.f.length = NP := by rw [ho.inv.wf.fs, ho.len]
  refine (wp_range (fun j _ s' => TrackedBy B P s [] s' ∧ s'.pop.x = old.x.take j ++ s.pop.x.drop j ∧
    s'.pop.f = old.f.take j ++ s.pop.f.drop j) NP () s ⟨tracked_refl hi.inv, by simp, by simp⟩ ?_).mono ?_ (fun _ _ h => h)
  · rintro j _ s' hj ⟨ht, e1, e2⟩
    unfold mbhResetOne
    rw [wp_bind, wp_lift_get (by omega), wp_bind, wp_lift_get (by omega)]
    refine wp_setXF_tracked hnx0 (by omega) ht (by rw [ht.id, hi.len]; exact hj) (ho.inv.wf.dimX _ (List.getElem_mem _))
      (ho.inv.wf.dimF _ (List.getElem_mem _)) ?_ (fun e s'' h => evsBy_of_failed h)
    intro s2 ht2 _ h1 h2 _
    refine ⟨ht2, ?_, ?_⟩
    · rw [h1, e1, set_take_drop (by omega) (by omega)]
    · rw [h2, e2, set_take_drop (by omega) (by omega)]
  · rintro _ s' ⟨ht, e1, e2⟩
    rw [List.take_of_length_le (by omega), List.drop_of_length_le (by omega), List.append_nil] at e1 e2
    exact ⟨⟨ht.inv, by rw [ht.id, hi.len], ht.tol.trans hi.tol, e2 ▸ ho.vals⟩, evsBy_of_tracked ht, e1, e2⟩

/-- what one round of the main loop does -/
theorem wpn_mbhRound (hg : v.g.Lawful rep) (hP : SaneBounds P.lb P.ub P.nix) (hnx : P.info.nx = P.lb.length) (hnobj : P.info.nobj = 1)
    (hB : ∀ x, InBox P.lb P.ub 0 x → B x) (hF : ∀ h x f, P.fit h x = .ok f → F f) {pv : List (Fl K)} (hpv : pv.length = P.info.nx) {inner : Run (St K σ) Unit}
    (hin : InnerOk N B F P inner) {NP : Nat} {tol : List (Fl K)}
    (hbest : ∀ p, Sized F P NP tol p → ∃ f, bestF v P p = .ok f ∧ f ∈ p.f) {i : Nat} (hi32 : i + 1 < 2 ^ 32) {s : St K σ}
    (hs : Sized F P NP tol s.pop) :
    wpn N (mbhRound v P inner pv NP i)
      (fun i' s' => Sized F P NP tol s'.pop ∧ EvsBy B s s' ∧ ∃ f f', bestF v P s.pop = .ok f ∧ bestF v P s'.pop = .ok f' ∧
        f ∈ s.pop.f ∧ f' ∈ s'.pop.f ∧
        (i' = 0 ∧ Con.compareFc v.sq f' f P.info.nec tol = .ok true ∨ i' = i + 1 ∧ f' = f ∧ s'.pop.x = s.pop.x ∧ s'.pop.f = s.pop.f))
      (fun _ s' => EvsBy B s s') s := by
  unfold mbhRound
  rw [wpn_bind, wpn_get', wpn_bind, ← hs.len]
  refine (wpn_of_wp (wp_mbhPerturb hg hP hnx hnobj hB hF hpv hs.inv hs.vals)).mono ?_ (fun _ _ h => h)
  rintro _ s1 ⟨⟨new, ht⟩, hv1⟩
  rw [wpn_bind]
  have ev1 := evsBy_of_tracked ht
  refine (hin s1 ht.inv hv1).mono ?_ (fun _ _ h => evsBy_trans ev1 h)
  rintro _ s2 ⟨h1, h2, h3, h4, hv2⟩
  have ev2 := evsBy_trans ev1 h4
  have hs2 : Sized F P NP tol s2.pop := ⟨h1, by rw [h2, ht.id, hs.len], by rw [h3, ht.tol, hs.tol], hv2⟩
  obtain ⟨f', hf', mf'⟩ := hbest _ hs2
  obtain ⟨f, hf, mf⟩ := hbest _ hs
  have lf := hs.inv.wf.dimF f mf
  have lf' := h1.wf.dimF f' mf'
  have hnf : P.info.nf = P.info.nc + 1 := by simp only [Info.nf, Info.nc, hnobj]; omega
  have hnec : P.info.nec ≤ P.info.nc := by simp [Info.nc]
  have htol : tol.length = P.info.nc := by rw [← hs.tol]; exact hs.inv.tol
  obtain ⟨r, hr⟩ := Con.compareFc_isOk (sq := v.sq) (neq := P.info.nec) (tol := tol) (f := f') (g := f)
    ⟨by omega, by omega⟩ ⟨by omega, by omega⟩
  rw [wpn_bind, wpn_get', wpn_bind, hf', wpn_lift_ok, wpn_bind, hf, wpn_lift_ok, wpn_bind, hs2.tol, hr, wpn_lift_ok]
  unfold mbhJudge
  cases r with
  | true =>
    rw [if_pos rfl, wpn_pure]
    exact ⟨hs.len ▸ hs2, ev2, f, f', rfl, hf', mf, mf', Or.inl ⟨rfl, hr⟩⟩
  | false =>
    rw [if_neg (by simp), wpn_bind, hs.len]
    refine (wpn_of_wp (wp_mbhReset hP hnx hnobj hs hs2)).mono ?_ (fun _ _ h => evsBy_trans ev2 h)
    rintro _ s3 ⟨h5, h6, h7, h8⟩
    rw [wpn_pure]
    have : bestF v P s3.pop = .ok f := by
      rw [← hf]; unfold bestF; rw [h8, h5.tol, hs.tol]
    exact ⟨h5, evsBy_trans ev2 h6, f, f, rfl, this, mf, h8 ▸ mf, Or.inr ⟨incU_eq (by omega), rfl, h7, h8⟩⟩

theorem wpn_mbhLoop (hg : v.g.Lawful rep) (hP : SaneBounds P.lb P.ub P.nix) (hnx : P.info.nx = P.lb.length) (hnobj : P.info.nobj = 1)
    (hB : ∀ x, InBox P.lb P.ub 0 x → B x) (hF : ∀ h x f, P.fit h x = .ok f → F f) {pv : List (Fl K)} (hpv : pv.length = P.info.nx) {inner : Run (St K σ) Unit}
    (hin : InnerOk N B F P inner) {NP : Nat} {tol : List (Fl K)}
    (hbest : ∀ p, Sized F P NP tol p → ∃ f, bestF v P p = .ok f ∧ f ∈ p.f)
    (tr : ∀ f g h : List (Fl K), f.length = P.info.nf → g.length = P.info.nf → h.length = P.info.nf →
      Con.compareFc v.sq f g P.info.nec tol = .ok true → Con.compareFc v.sq g h P.info.nec tol = .ok true →
      Con.compareFc v.sq f h P.info.nec tol = .ok true)
    {stop : Nat} (hstop : stop < 2 ^ 32) :
    ∀ (fuel i : Nat) (s : St K σ), Sized F P NP tol s.pop → i ≤ stop →
      (N ∨ ∃ rank : List (Fl K) → Nat, (∀ f g, F f → F g →
        Con.compareFc v.sq f g P.info.nec tol = .ok true → rank f < rank g) ∧
        ∀ f, bestF v P s.pop = .ok f → rank f * stop + (stop - i) < fuel) →
      wpn N (mbhLoop v P inner stop pv NP fuel i)
        (fun _ s' => Sized F P NP tol s'.pop ∧ EvsBy B s s' ∧ ∃ f f', bestF v P s.pop = .ok f ∧ bestF v P s'.pop = .ok f' ∧
          f ∈ s.pop.f ∧ f' ∈ s'.pop.f ∧ (f' = f ∨ Con.compareFc v.sq f' f P.info.nec tol = .ok true))
        (fun _ s' => EvsBy B s s') s := by
  intro fuel
  induction fuel with
  | zero =>
    intro i s hs _ h
    rcases h with h | ⟨rank, _, h⟩
    · exact wpn_nofuel h
    · obtain ⟨f, hf, _⟩ := hbest _ hs
      have := h f hf
      omega
  | succ n ih =>
    intro i s hs hi h
    rw [mbhLoop]
    split
    · rename_i hlt
      rw [wpn_bind]
      refine (wpn_mbhRound hg hP hnx hnobj hB hF hpv hin hbest (by omega) hs).mono ?_ (fun _ _ h => h)
      rintro i' s1 ⟨hs1, ev1, f, f1, hf, hf1, mf, mf1, hor⟩
      have lf := hs.inv.wf.dimF f mf
      have lf1 := hs1.inv.wf.dimF f1 mf1
      refine (ih i' s1 hs1 ?_ ?_).mono ?_ (fun _ _ h => evsBy_trans ev1 h)
      · rcases hor with h | h <;> omega
      · rcases h with h | ⟨rank, h1, h2⟩
        · exact Or.inl h
        · refine Or.inr ⟨rank, h1, fun g hg => ?_⟩
          rw [hf1] at hg; cases hg
          have h3 := h2 f hf
          rcases hor with ⟨h4, h5⟩ | ⟨h4, h5, _⟩
          · have h6 := h1 f1 f (hs1.vals _ mf1) (hs.vals _ mf) h5
            have : (rank f1 + 1) * stop ≤ rank f * stop := Nat.mul_le_mul_right _ h6
            rw [Nat.add_mul, Nat.one_mul] at this
            omega
          · rw [h5]; omega
      · rintro _ s2 ⟨hs2, ev2, g, g', hg, hg', mg, mg', hgg⟩
        rw [hf1] at hg; cases hg
        refine ⟨hs2, evsBy_trans ev1 ev2, f, g', hf, hg', mf, mg', ?_⟩
        rcases hor with ⟨_, h5⟩ | ⟨_, h5, _⟩
        · rcases hgg with rfl | h
          · exact Or.inr h5
          · exact Or.inr (tr _ _ _ (hs2.inv.wf.dimF _ mg') lf1 lf h h5)
        · rw [← h5]; exact hgg
    · obtain ⟨f, hf, mf⟩ := hbest _ hs
      exact ⟨hs, evsBy_refl s, f, f, hf, hf, mf, mf, Or.inl rfl⟩

end Verif.Props
