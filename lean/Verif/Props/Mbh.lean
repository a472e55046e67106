import Verif.Proof.Mbh
import Verif.Props.Compass

/-!
# Monotonic basin hopping (C68)
-/

set_option autoImplicit false

namespace Verif.Props

open Verif Run Prob Pop Alg

variable {K σ : Type} [Field K] [LinearOrder K] [IsStrictOrderedRing K]

/-- What `mbh` leaves behind: a sound population of the same size, only points with `B` evaluated, and some individual of
the new population to which no individual of the old one is preferred. -/
structure Hopped (better : List (Fl K) → List (Fl K) → Prop) (B : List (Fl K) → Prop) (P : AProb K) (s s' : St K σ) : Prop where
  inv : Inv P.info s'.pop
  size : s'.pop.id.length = s.pop.id.length
  evs : EvsBy B s s'
  best : ∃ g ∈ s'.pop.f, ∀ h ∈ s.pop.f, ¬ better h g

/-- without constraints, `compare_fc` compares the objectives -/
theorem fcBetter_unconstrained {f g : List (Fl ℝ)} (hf : f.length = 1) (hg : g.length = 1) : FcBetter 0 [] f g ↔ Lower f g := by
  obtain ⟨a, rfl⟩ := List.length_eq_one_iff.mp hf
  obtain ⟨b, rfl⟩ := List.length_eq_one_iff.mp hg
  have hv : ∀ a : Fl ℝ, Con.Valid [a] 0 [] := fun a => ⟨rfl, Nat.le_refl _⟩
  rw [FcBetter, show Con.compareFc Fl.sqrtR [a] [b] 0 [] = .ok (Fl.lessThanF a b) by
    simp [Con.compareFc, Con.testCons, Con.testLoop, Outcome.get]]
  simp [Lower, Fl.lessThanF_iff]

/-- `best_idx()` of a sound population of a problem with one kind of constraints -/
theorem best_works {v : Env ℝ σ} (hsrt : ValidSort v.srt) (hsq : v.sq = Fl.sqrtR) {P : AProb ℝ} (hnobj : P.info.nobj = 1)
    (hk : P.info.nec = 0 ∨ P.info.nic = 0) {p : Pop.State ℝ} (hi : Inv P.info p) (hne : p.id ≠ []) (hsz : p.id.length ≤ 2 ^ 63) :
    ∃ f, bestF v P p = .ok f ∧ f ∈ p.f ∧
      ((P.info.nc = 0 → ∀ f ∈ p.f, Fl.nan ∉ f) → ∀ g ∈ p.f, ¬ FcBetter P.info.nec p.tol g f) := by
  have hfne : p.f ≠ [] := fun h => hne (List.length_eq_zero_iff.mp (by rw [← hi.wf.fs, h]; rfl))
  have key : ∀ i f, bestIdx v.srt v.sq P.info p.f p.tol = .ok i → p.f[i]? = some f → bestF v P p = .ok f ∧ f ∈ p.f := by
    intro i f h1 h2
    refine ⟨?_, List.mem_of_getElem? h2⟩
    unfold bestF
    rw [h1]
    show Outcome.get p.f i = _
    rw [Outcome.get, h2]
  by_cases hnc : P.info.nc = 0
  · have hnec : P.info.nec = 0 := by simp only [Info.nc] at hnc; omega
    have htol : p.tol = [] := List.length_eq_zero_iff.mp (hi.tol.trans hnc)
    have hnf : P.info.nf = 1 := by simp only [Info.nf, Info.nc] at *; omega
    by_cases hnan : ∀ f ∈ p.f, Fl.nan ∉ f
    · obtain ⟨i, f, h1, h2, h3⟩ := (ranked_unconstrained v P hnobj hnc p hi.wf hne hsz hnan).1
      obtain ⟨h4, h5⟩ := key i f h1 h2
      refine ⟨f, h4, h5, fun _ g hg => ?_⟩
      rw [hnec, htol, fcBetter_unconstrained ((hi.wf.dimF g hg).trans hnf) ((hi.wf.dimF f h5).trans hnf)]
      exact h3 g hg
    · obtain ⟨i, h1, h2⟩ := (idx_lt (srt := v.srt) (sq := v.sq) hnobj hnc hfne (by rw [hi.wf.fs]; exact hsz) p.tol).1
      obtain ⟨h4, h5⟩ := key i _ h1 (List.getElem?_eq_getElem h2)
      exact ⟨_, h4, h5, fun h => absurd (h hnc) hnan⟩
  · obtain ⟨i, f, h1, h2, h3⟩ := (ranked_constrained v hsrt hsq P hnobj (by omega) hk p hi hne).1
    obtain ⟨h4, h5⟩ := key i f h1 h2
    exact ⟨f, h4, h5, fun _ => h3⟩

/-- the assumptions on the problem and the population -/
structure Hoppable (P : AProb ℝ) (p : Pop.State ℝ) : Prop where
  bounds : SaneBounds P.lb P.ub P.nix
  nx : P.info.nx = P.lb.length
  kinds : P.info.nec = 0 ∨ P.info.nic = 0
  inv : Inv P.info p
  size : p.id.length ≤ 2 ^ 63
  nan : P.info.nc = 0 → ∀ f ∈ p.f, Fl.nan ∉ f

omit [IsStrictOrderedRing K] in
/-- C68 (errors). More than one objective, a stochastic problem or (unless nothing is to be done) a perturbation vector of
the wrong size: `std::invalid_argument`, before any evaluation. -/
theorem C68_throws (v : Env K σ) (P : AProb K) (inner : Run (St K σ) Unit) (A : Mbh K) (fuel : Nat) (s : St K σ) :
    (P.info.nobj ≠ 1 ∨ P.info.stochastic = true → mbhEvolve v P inner A fuel s = (.throws .invalidArgument, s)) ∧
    (P.info.nobj = 1 → P.info.stochastic = false → A.stop = 0 → mbhEvolve v P inner A fuel s = (.ok (), s)) ∧
    (A.stop ≠ 0 → A.perturb.length ≠ 1 → A.perturb.length ≠ P.info.nx →
      mbhEvolve v P inner A fuel s = (.throws .invalidArgument, s)) := by
  unfold mbhEvolve
  refine ⟨?_, ?_, ?_⟩
  · intro h
    by_cases h1 : P.info.nobj = 1
    · have h2 : P.info.stochastic = true := by rcases h with h | h; exact absurd h1 h; exact h
      rw [if_neg (by simpa using h1), if_pos h2]; rfl
    · rw [if_pos h1]; rfl
  · intro h1 h2 h3
    rw [if_neg (by simpa using h1), if_neg (by simp [h2]), if_pos h3]; rfl
  · intro h1 h2 h3
    split
    · rfl
    · split
      · rfl
      · rw [if_pos (by unfold mbhPerturbVec; rw [if_neg h2]; exact h3)]; rfl

omit [IsStrictOrderedRing K] in
/-- C68 (constructors). A perturbation is accepted if and only if all its entries are in (0, 1]. -/
theorem C68_ctor (stop : Nat) :
    (∀ p : Fl K, (p ≠ .nan ∧ .fin 0 < p ∧ p ≤ .fin 1 → mbhScalar stop p = .ok ⟨stop, [p]⟩) ∧
      (¬ (p ≠ .nan ∧ .fin 0 < p ∧ p ≤ .fin 1) → mbhScalar stop p = .throws .invalidArgument)) ∧
    (∀ l : List (Fl K), ((∀ p ∈ l, p ≠ .nan ∧ .fin 0 < p ∧ p ≤ .fin 1) → mbhVector stop l = .ok ⟨stop, l⟩) ∧
      (¬ (∀ p ∈ l, p ≠ .nan ∧ .fin 0 < p ∧ p ≤ .fin 1) → mbhVector stop l = .throws .invalidArgument)) := by
  have key : ∀ p : Fl K, (p.isNan || Fl.gt p (.fin 1) || Fl.le p (.fin 0)) = false ↔ p ≠ .nan ∧ .fin 0 < p ∧ p ≤ .fin 1 := by
    intro p
    by_cases hp : p = .nan
    · subst hp; simp [Fl.isNan]
    · have h0 : p.isNan = false := by cases p <;> first | rfl | exact absurd rfl hp
      have h1 : p.gt (.fin 1) = true ↔ .fin 1 < p := Fl.lt_iff (by simp) hp
      have h2 : p.le (.fin 0) = true ↔ p ≤ .fin 0 := Fl.le_iff hp (by simp)
      rw [Bool.or_eq_false_iff, Bool.or_eq_false_iff, ← Bool.not_eq_true (p.gt _), ← Bool.not_eq_true (p.le _), h1, h2, not_lt, not_le]
      simp [h0, hp, and_comm]
  have key2 : ∀ p : Fl K, (!p.isNan && Fl.gt p (.fin 0) && Fl.le p (.fin 1)) = true ↔ p ≠ .nan ∧ .fin 0 < p ∧ p ≤ .fin 1 := by
    intro p
    by_cases hp : p = .nan
    · subst hp; simp [Fl.isNan]
    · have h0 : p.isNan = false := by cases p <;> first | rfl | exact absurd rfl hp
      have h1 : p.gt (.fin 0) = true ↔ .fin 0 < p := Fl.lt_iff (by simp) hp
      have h2 : p.le (.fin 1) = true ↔ p ≤ .fin 1 := Fl.le_iff hp (by simp)
      rw [Bool.and_eq_true, Bool.and_eq_true, h1, h2]
      simp [h0, hp, and_assoc]
  refine ⟨fun p => ⟨fun h => ?_, fun h => ?_⟩, fun l => ⟨fun h => ?_, fun h => ?_⟩⟩
  · rw [mbhScalar, (key p).mpr h]; rfl
  · rw [mbhScalar, if_pos]
    rw [← Bool.not_eq_false]
    exact fun h' => h ((key p).mp h')
  · rw [mbhVector, if_pos]
    exact List.all_eq_true.mpr fun p hp => (key2 p).mpr (h p hp)
  · rw [mbhVector, if_neg]
    intro h'
    exact h fun p hp => (key2 p).mp (List.all_eq_true.mp h' p hp)

theorem mbh_run {N : Prop} {v : Env ℝ σ} (hsrt : ValidSort v.srt) (hsq : v.sq = Fl.sqrtR) {rep : ℝ → Prop} (hg : v.g.Lawful rep)
    {P : AProb ℝ} {B F : List (Fl ℝ) → Prop} (hB : ∀ x, InBox P.lb P.ub 0 x → B x) (hF : ∀ h x f, P.fit h x = .ok f → F f)
    {inner : Run (St ℝ σ) Unit} (hin : InnerOk N B F P inner) {A : Mbh ℝ} (hstop : A.stop < 2 ^ 32) {s : St ℝ σ}
    (hs : Hoppable P s.pop) (hne : s.pop.id ≠ []) (hv : ∀ f ∈ s.pop.f, F f) {fuel : Nat}
    (hN : N ∨ ∃ rank : List (Fl ℝ) → Nat, (∀ f g, F f → F g → FcBetter P.info.nec s.pop.tol f g → rank f < rank g) ∧
        ∀ f, F f → rank f * A.stop + A.stop < fuel) :
    wpn N (mbhEvolve v P inner A fuel) (fun _ s' => Hopped (FcBetter P.info.nec s.pop.tol) B P s s')
      (fun _ s' => EvsBy B s s') s := by
  unfold mbhEvolve
  split
  · exact evsBy_refl s
  rename_i hnobj
  split
  · exact evsBy_refl s
  have hnobj : P.info.nobj = 1 := by simpa using hnobj
  obtain ⟨f0, hf0, mf0, nb⟩ := best_works hsrt hsq hnobj hs.kinds hs.inv hne hs.size
  have nb := nb hs.nan
  split
  · exact ⟨hs.inv, rfl, evsBy_refl s, f0, mf0, nb⟩
  split
  · exact evsBy_refl s
  rename_i hpv
  have hpv : (mbhPerturbVec A.perturb P.info.nx).length = P.info.nx := by simpa using hpv
  rw [wpn_bind, wpn_get']
  have args : ∀ f : List (Fl ℝ), f.length = P.info.nf → FcArgs P.info.nec s.pop.tol f := by
    intro f hf
    have h1 := hs.inv.tol
    refine ⟨?_, ?_⟩ <;> simp only [Info.nf, Info.nc] at * <;> omega
  have htr := (C11_strict_partial_order_partial P.info.nec s.pop.tol).2.2
  have hbest : ∀ p, Sized F P s.pop.id.length s.pop.tol p → ∃ f, bestF v P p = .ok f ∧ f ∈ p.f := by
    intro p hp
    obtain ⟨f, h1, h2, _⟩ := best_works hsrt hsq hnobj hs.kinds hp.inv
      (fun h => hne (List.length_eq_zero_iff.mp (by rw [← hp.len, h]; rfl))) (by rw [hp.len]; exact hs.size)
    exact ⟨f, h1, h2⟩
  refine (wpn_mbhLoop hg hs.bounds hs.nx hnobj hB hF hpv hin hbest ?_ hstop fuel 0 s ⟨hs.inv, rfl, rfl, hv⟩ (Nat.zero_le _) ?_).mono
    ?_ (fun _ _ h => h)
  · intro f g h hf hg' hh
    rw [hsq]
    exact htr f g h (args f hf) (args g hg') (args h hh)
  · rcases hN with h | ⟨rank, h1, h2⟩
    · exact Or.inl h
    · refine Or.inr ⟨rank, by rw [hsq]; exact h1, fun f hf => ?_⟩
      obtain ⟨g0, hg', mg⟩ := hbest _ ⟨hs.inv, rfl, rfl, hv⟩
      rw [hg'] at hf
      have := h2 f (hv f (by cases hf; exact mg))
      omega
  · rintro _ s' ⟨h1, h2, f, f', h3, h4, h5, h6, h7⟩
    rw [hf0] at h3; cases h3
    refine ⟨h1.inv, h1.len, h2, f', h6, fun h hh hb => ?_⟩
    rcases h7 with rfl | h7
    · exact nb h hh hb
    · rw [hsq] at h7
      exact nb h hh (htr h f' f0 (args _ (hs.inv.wf.dimF _ hh)) (args _ (h1.inv.wf.dimF _ h6)) (args _ (hs.inv.wf.dimF _ h5)) hb h7)

/-- C68. Whatever the inner algorithm does (also if it sometimes never ends), provided it returns a sound population of the
same size: if `mbh::evolve` returns, then the population has an individual to which no individual of the input population
is preferred by `compare_fc`; the size is unchanged. If it throws or returns, it evaluated only points inside the bounds,
apart from those the inner algorithm evaluated (`B`).
`_partial`: exact arithmetic in `compare_fc`; not for problems with both kinds of constraints (the sort inside
`best_idx()` can then be undefined, C13) nor NaN objectives in the input population (`C68_nan`). -/
theorem C68_mbh_partial (v : Env ℝ σ) (hsrt : ValidSort v.srt) (hsq : v.sq = Fl.sqrtR) (rep : ℝ → Prop) (hg : v.g.Lawful rep)
    (P : AProb ℝ) (B : List (Fl ℝ) → Prop) (hB : ∀ x, InBox P.lb P.ub 0 x → B x)
    (inner : Run (St ℝ σ) Unit) (hin : InnerOk True B (fun _ => True) P inner) (A : Mbh ℝ) (hstop : A.stop < 2 ^ 32) (s : St ℝ σ)
    (hs : Hoppable P s.pop) (hne : s.pop.id ≠ []) (fuel : Nat) :
    wpn True (mbhEvolve v P inner A fuel) (fun _ s' => Hopped (FcBetter P.info.nec s.pop.tol) B P s s')
      (fun _ s' => EvsBy B s s') s :=
  mbh_run hsrt hsq hg hB (fun _ _ _ _ => trivial) hin hstop hs hne (fun _ _ => trivial) (Or.inl trivial)

/-- C68 (end). If the inner algorithm always ends and objective vectors come from a finite set (as vectors of doubles do),
then `mbh::evolve` ends. -/
theorem C68_ends_partial (v : Env ℝ σ) (hsrt : ValidSort v.srt) (hsq : v.sq = Fl.sqrtR) (rep : ℝ → Prop) (hg : v.g.Lawful rep)
    (P : AProb ℝ) (B : List (Fl ℝ) → Prop) (hB : ∀ x, InBox P.lb P.ub 0 x → B x) (S : Finset (List (Fl ℝ)))
    (hS : ∀ f ∈ S, f.length = P.info.nf) (hF : ∀ h x f, P.fit h x = .ok f → f ∈ S)
    (inner : Run (St ℝ σ) Unit) (hin : InnerOk False B (· ∈ S) P inner) (A : Mbh ℝ) (hstop : A.stop < 2 ^ 32) (s : St ℝ σ)
    (hs : Hoppable P s.pop) (hne : s.pop.id ≠ []) (hv : ∀ f ∈ s.pop.f, f ∈ S) (hnobj : P.info.nobj = 1) (fuel : Nat)
    (hfuel : (S.card + 1) * A.stop < fuel) :
    wp (mbhEvolve v P inner A fuel) (fun _ s' => Hopped (FcBetter P.info.nec s.pop.tol) B P s s') (fun _ s' => EvsBy B s s') s := by
  classical
  refine wp_of_wpn (mbh_run hsrt hsq hg hB hF hin hstop hs hne hv (Or.inr ?_))
  have args : ∀ f : List (Fl ℝ), f.length = P.info.nf → FcArgs P.info.nec s.pop.tol f := by
    intro f hf
    have h1 := hs.inv.tol
    refine ⟨?_, ?_⟩ <;> simp only [Info.nf, Info.nc] at * <;> omega
  obtain ⟨irr, _, tr⟩ := C11_strict_partial_order_partial P.info.nec s.pop.tol
  refine ⟨fun f => (S.filter (fun g => FcBetter P.info.nec s.pop.tol g f)).card, ?_, ?_⟩
  · intro f g hf hg' hb
    refine Finset.card_lt_card (Finset.ssubset_iff_of_subset ?_ |>.mpr ⟨f, by simp [hf, hb], ?_⟩)
    · intro h hh
      rw [Finset.mem_filter] at hh ⊢
      exact ⟨hh.1, tr h f g (args _ (hS _ hh.1)) (args _ (hS _ hf)) (args _ (hS _ hg')) hh.2 hb⟩
    · rw [Finset.mem_filter]
      exact fun h => irr f (args _ (hS _ hf)) h.2
  · intro f _
    have : (S.filter (fun g => FcBetter P.info.nec s.pop.tol g f)).card ≤ S.card := Finset.card_filter_le _ _
    have := Nat.mul_le_mul_right A.stop this
    rw [Nat.add_mul, Nat.one_mul] at hfuel
    exact lt_of_le_of_lt (Nat.add_le_add_right this _) hfuel

/-- one variable in [0, 1]; the objective is NaN at 0, 1 at 1 and 2 in between -/
def hopNan : AProb ℚ :=
  ⟨P1, [.fin 0], [.fin 1], 0, fun _ x => .ok [if x = [.fin 0] then .nan else if x = [.fin 1] then .fin 1 else .fin 2]⟩

/-- C68 (NaN). With a NaN objective in the input the statement is false: `best_idx()` takes the NaN of the first
individual for the best, so any population without it counts as an improvement, and the objective 1 is lost. The inner
algorithm does nothing. -/
theorem C68_nan : (mbhEvolve algDemoEnv hopNan (pure ()) ⟨1, [.fin 1]⟩ 5
    ⟨⟨[7, 8], [[.fin 0], [.fin 1]], [[.nan], [.fin 1]], [.fin 1], [.fin 1], [], fun n => n, []⟩, [1 / 2, 1 / 2, 1 / 2, 1 / 2, 1 / 2], []⟩).2.pop.f =
      [[.fin 2], [.fin 2]] ∧ Lower [.fin (1 : ℚ)] [.fin 2] := by
  refine ⟨by decide +kernel, ⟨_, _, rfl, rfl, by decide +kernel⟩⟩

/-! ### The hypotheses are met -/

omit [IsStrictOrderedRing K] in
/-- an inner algorithm that does nothing -/
theorem inner_pure (N : Prop) (B F : List (Fl K) → Prop) (P : AProb K) : InnerOk (σ := σ) N B F P (pure ()) :=
  fun s hs hv => ⟨hs, rfl, rfl, evsBy_refl s, hv⟩

theorem flat_hoppable : Hoppable (flatProb : AProb ℝ) flatPop where
  bounds := by
    refine ⟨by simp [flatProb], rfl, ?_, by simp [flatProb], ?_, ?_⟩
    · intro i l u hl hu
      cases i with
      | zero =>
        simp only [flatProb, List.getElem?_cons_zero, Option.some.injEq] at hl hu
        subst hl hu
        exact ⟨by simp, by simp, by simp⟩
      | succ i => simp [flatProb] at hl
    · intro i a h1 h2
      have := (List.getElem?_eq_some_iff.mp h2).1
      simp [flatProb] at *; omega
    · intro i a h1 h2
      have := (List.getElem?_eq_some_iff.mp h2).1
      simp [flatProb] at *; omega
  nx := rfl
  kinds := Or.inl rfl
  inv := ⟨⟨rfl, rfl, by simp [flatPop, flatProb, P1], by simp [flatPop, flatProb, P1, Info.nf]⟩, Or.inr ⟨rfl, rfl⟩, rfl⟩
  size := by simp [flatPop]
  nan _ := by simp [flatPop]

example (g : Gen ℝ σ) (rep : ℝ → Prop) (hg : g.Lawful rep) (e : σ) :
    wp (mbhEvolve ⟨insSort, Fl.sqrtR, Fl.exact ℝ, g⟩ flatProb (pure ()) ⟨5, [.fin (1 / 2)]⟩ 11)
      (fun _ s' => Hopped (FcBetter 0 []) (InBox [.fin 0] [.fin 1] 0) flatProb ⟨flatPop, e, []⟩ s')
      (fun _ s' => EvsBy (InBox [.fin 0] [.fin 1] 0) ⟨flatPop, e, []⟩ s') ⟨flatPop, e, []⟩ :=
  C68_ends_partial ⟨insSort, Fl.sqrtR, Fl.exact ℝ, g⟩ insSort_valid rfl rep hg flatProb (InBox [.fin 0] [.fin 1] 0) (fun _ h => h)
    {[.fin 0]} (by simp [flatProb, P1, Info.nf]) (by simp [flatProb]) (pure ()) (inner_pure _ _ _ _) ⟨5, [.fin (1 / 2)]⟩ (by norm_num)
    ⟨flatPop, e, []⟩ flat_hoppable (by simp [flatPop]) (by simp [flatPop]) rfl 11 (by simp)

/-- basin hopping run on the square: the perturbation of the second individual is an improvement -/
example : (mbhEvolve algDemoEnv algDemo (pure ()) ⟨2, [.fin (1 / 2)]⟩ 9
    { algDemoSt with e := [1/2, 0, 1/2, 1, 1, 1, 1, 1, 1, 1, 1, 1] }).2.pop.f = [[.fin 16], [.fin 0], [.fin (49 / 4)]] := by decide +kernel
example : (mbhEvolve algDemoEnv algDemo (pure ()) ⟨2, [.fin (1 / 2)]⟩ 9
    { algDemoSt with e := [1/2, 0, 1/2, 1, 1, 1, 1, 1, 1, 1, 1, 1] }).2.evs.length = 9 := by decide +kernel

end Verif.Props
