import Verif.Proof.Sade
import Verif.Props.Sga

/-!
# sade and de1220

C97: what a run of `sade` does, C98: how `F` and `CR` are adapted, C99: what a run of `de1220` does.
-/

set_option autoImplicit false

namespace Verif.Props

open Verif Run Prob Pop Alg Rnd

variable {K σ : Type} [Field K] [LinearOrder K]

section

variable [IsStrictOrderedRing K]

/-! ## C97 -/

/-- C97. For every population of at least seven individuals inside the bounds of a deterministic single-objective unconstrained
problem with finite bounds, every fitness function (NaN and exceptions included), engine, mutation variant, adaptation scheme and
tolerances, in arithmetic without overflow: the run has the given number of generations or ends with the first one that
meets an exit condition. In every generation each individual in turn is mutated, crossed over and repaired with the `F` and `CR` of
its own (adapted); the trial replaces it if it is not worse, and then its `F` and `CR` are kept. `F` and `CR` are those of the
previous call with `memory` (and the same size), else new. If the user's function throws, so does `evolve`. -/
theorem C97_evolve (v : Env K σ) (rep : K → Prop) (hg : v.g.Lawful rep) (hop : NoOverflow v.op) (D : Dist K σ) (P : AProb K)
    (hP : FiniteBox P) (hnobj : P.info.nobj = 1) (hnc : P.info.nc = 0) (hst : P.info.stochastic = false) (gens variant adptv : Nat)
    (ftol xtol : Fl K) (memory : Bool) (A : Sade K) (hA : sadeCtor gens variant adptv ftol xtol memory = .ok A) (hgens : gens + 1 < 2 ^ 32)
    (s : St K σ) (hi : Inv P.info s.pop) (h7 : 7 ≤ s.pop.id.length) (hsz : s.pop.id.length ≤ 2 ^ 63)
    (hbox : ∀ x ∈ s.pop.x, InBox P.lb P.ub 0 x) (m : AdMem K) (hm : AllFin m.F ∧ AllFin m.CR) (fuel : Nat) (hfuel : gens < fuel) :
    wp (sadeEvolve v D P A fuel m)
      (fun m' s' => (gens = 0 → m' = m ∧ s' = s) ∧
        (0 < gens → ∃ m0, AdDone v P gens adptv ftol xtol (fun w W => W = w) s m0 m' s' ∧ m0.V = List.replicate s.pop.id.length variant ∧
          (if memory = true ∧ m.F.length = s.pop.id.length ∧ m.CR.length = s.pop.id.length then m0.F = m.F ∧ m0.CR = m.CR
            else FreshPars v.op adptv s.pop.id.length m0.F m0.CR)))
      (RunFailed P s) s := by
  have hA' : A = ⟨gens, variant, adptv, ftol, xtol, memory⟩ ∧ 1 ≤ variant := by
    unfold sadeCtor at hA
    split at hA
    · cases hA
    · split at hA <;> cases hA
      exact ⟨rfl, by omega⟩
  obtain ⟨rfl, hv⟩ := hA'
  have hnf : P.info.nf = 1 := by simp only [Info.nf, Info.nc] at *; omega
  unfold sadeEvolve
  rw [if_neg (by omega), if_neg (by omega), if_neg (by simp [hst])]
  split
  · rename_i h0
    have h0 : gens = 0 := h0
    exact ⟨fun _ => ⟨rfl, rfl⟩, fun h => by omega⟩
  · rename_i h0
    have h0 : 0 < gens := Nat.pos_of_ne_zero h0
    rw [wp_bind, wp_get', if_neg (by omega), wp_bind, wp_onRng]
    have hpick : PickOk (σ := σ) (pure : Nat → Run σ Nat) (fun w W => W = w) (fun w => w = variant) := fun w s E hw => ⟨rfl, hw⟩
    have run : ∀ (m0 : AdMem K) (e : σ), (m0.F.length = s.pop.id.length ∧ AllFin m0.F) → (m0.CR.length = s.pop.id.length ∧ AllFin m0.CR) →
        m0.V = List.replicate s.pop.id.length variant →
        (if memory = true ∧ m.F.length = s.pop.id.length ∧ m.CR.length = s.pop.id.length then m0.F = m.F ∧ m0.CR = m.CR
            else FreshPars v.op adptv s.pop.id.length m0.F m0.CR) →
        wp (adRun v D P gens adptv ftol xtol pure fuel m0) (fun m' s' => (gens = 0 → m' = m ∧ s' = s) ∧
          (0 < gens → ∃ m0, AdDone v P gens adptv ftol xtol (fun w W => W = w) s m0 m' s' ∧ m0.V = List.replicate s.pop.id.length variant ∧
          (if memory = true ∧ m.F.length = s.pop.id.length ∧ m.CR.length = s.pop.id.length then m0.F = m.F ∧ m0.CR = m.CR
            else FreshPars v.op adptv s.pop.id.length m0.F m0.CR))) (RunFailed P s) { s with e := e } := by
      intro m0 e hF hCR hV hst
      refine (wp_adRun (s0 := s) (s := { s with e := e }) hg hop (D := D) (adptv := adptv) hpick (fun w hw => by omega) hP hnobj hnc hi h7 hsz hbox ftol xtol hgens h0 hfuel hF hCR
        ⟨by rw [hV]; simp, fun w hw => by rw [hV] at hw; exact (List.mem_replicate.mp hw).2⟩ ⟨rfl, rfl⟩).mono ?_ (fun _ _ h => h)
      rintro m' s' ⟨h, _⟩
      exact ⟨fun h => by omega, fun _ => ⟨m0, h, hV, hst⟩⟩
    unfold sadeStart
    dsimp only
    split
    · rename_i hc
      rw [wp_bind]
      refine (wp_adInit hg).mono ?_ (fun _ _ h => absurd h id)
      rintro ⟨CR, F⟩ e hfr
      obtain ⟨f1, f2⟩ := freshPars_fin hop hfr
      rw [wp_pure]
      refine run _ e f1 f2 rfl ?_
      rw [if_neg]
      · exact hfr
      · rintro ⟨h1, h2, h3⟩
        rcases hc with hc | hc | hc
        · exact hc h3
        · exact hc h2
        · rw [h1] at hc; cases hc
    · rename_i hc
      push Not at hc
      rw [wp_pure]
      refine run _ s.e ⟨hc.2.1, hm.1⟩ ⟨hc.1, hm.2⟩ rfl ?_
      rw [if_pos ⟨by simpa using hc.2.2, hc.2.1, hc.1⟩]
      exact ⟨rfl, rfl⟩

omit [IsStrictOrderedRing K] in
/-- C97. `evolve` throws `std::invalid_argument`, and leaves all as it was, for a problem with constraints, with several objectives or a
stochastic one, and for less than seven individuals. -/
theorem C97_throws (v : Env K σ) (D : Dist K σ) (P : AProb K) (A : Sade K) (fuel : Nat) (m : AdMem K) (s : St K σ)
    (h : P.info.nc ≠ 0 ∨ P.info.nobj ≠ 1 ∨ P.info.stochastic = true ∨ (A.gens ≠ 0 ∧ s.pop.id.length < 7)) :
    sadeEvolve v D P A fuel m s = (.throws .invalidArgument, s) := by
  unfold sadeEvolve
  by_cases h1 : P.info.nc ≠ 0
  · rw [if_pos h1]; rfl
  rw [if_neg h1]
  by_cases h2 : P.info.nf ≠ 1
  · rw [if_pos h2]; rfl
  rw [if_neg h2]
  by_cases h3 : P.info.stochastic = true
  · rw [if_pos h3]; rfl
  rw [if_neg h3]
  have h4 : A.gens ≠ 0 ∧ s.pop.id.length < 7 := by
    rcases h with h | h | h | h
    · exact absurd h h1
    · simp only [Info.nf, Info.nc] at *; omega
    · exact absurd h h3
    · exact h
  rw [if_neg h4.1]
  show (if s.pop.id.length < 7 then _ else _ : Run (St K σ) (AdMem K)) s = _
  rw [if_pos h4.2]; rfl

omit [IsStrictOrderedRing K] in
/-- C97. The constructor throws `std::invalid_argument` unless the variant is one of 1, …, 18 and the adaptation scheme 1 or 2. -/
theorem C97_ctor (gens variant adptv : Nat) (ftol xtol : Fl K) (memory : Bool) :
    (1 ≤ variant ∧ variant ≤ 18 ∧ (adptv = 1 ∨ adptv = 2) → sadeCtor gens variant adptv ftol xtol memory = .ok ⟨gens, variant, adptv, ftol, xtol, memory⟩) ∧
    (¬ (1 ≤ variant ∧ variant ≤ 18 ∧ (adptv = 1 ∨ adptv = 2)) → sadeCtor gens variant adptv ftol xtol memory = .throws .invalidArgument) := by
  unfold sadeCtor
  refine ⟨fun h => ?_, fun h => ?_⟩
  · rw [if_neg (by omega), if_neg (by omega)]
  · by_cases h1 : variant < 1 ∨ variant > 18
    · rw [if_pos h1]
    · rw [if_neg h1, if_pos (by omega)]

omit [IsStrictOrderedRing K] in
theorem donor_eq {po : List (List (Fl K))} {r : List Nat} {k n : Nat} {a : Fl K} {q : List (Fl K)} {j : Nat} (h1 : r[k]? = some j) (h2 : po[j]? = some q)
    (h3 : q[n]? = some a) : donor po r k n = .ok a := by
  unfold donor
  rw [Outcome.get_eq_ok_iff.mpr h1, Outcome.bind_ok, Outcome.get_eq_ok_iff.mpr h2, Outcome.bind_ok, Outcome.get_eq_ok_iff.mpr h3]

omit [IsStrictOrderedRing K] in
/-- C97. The mutation: a base vector plus `F` times the sum of differences, as the name of the variant says: `best`, `rand` (the
`k`-th of the individuals chosen has the component `p k`), or the individual itself, which has `o`. In exact arithmetic. -/
theorem C97_formula (F b o : K) (p : Nat → K) (variant : Nat) (gb : List (Fl K)) (po : List (List (Fl K))) (i : Nat) (r : List Nat)
    (tmp xi : List (Fl K)) (n : Nat) (hv : 1 ≤ variant ∧ variant ≤ 18) (hb : gb[n]? = some (.fin b)) (hxi : po[i]? = some xi) (ho : xi[n]? = some (.fin o))
    (ht : tmp[n]? = some (.fin o)) (hp : ∀ k, k < 7 → ∃ j q, r[k]? = some j ∧ po[j]? = some q ∧ q[n]? = some (.fin (p k))) :
    adGene (Fl.exact K) (.fin F) variant gb po i r tmp n = .ok (.fin (mutant (Who.val b o p) (fun _ => F) (mutationOf variant))) := by
  have hd : ∀ k, k < 7 → donor po r k n = .ok (.fin (p k)) := by
    intro k hk
    obtain ⟨j, q, h1, h2, h3⟩ := hp k hk
    exact donor_eq h1 h2 h3
  unfold adGene
  rw [Outcome.get_eq_ok_iff.mpr ht, Outcome.bind_ok, Outcome.get_eq_ok_iff.mpr hb, Outcome.bind_ok, Outcome.get_eq_ok_iff.mpr hxi, Outcome.bind_ok,
    Outcome.get_eq_ok_iff.mpr ho, Outcome.bind_ok, hd 0 (by omega), Outcome.bind_ok, hd 1 (by omega), Outcome.bind_ok, hd 2 (by omega), Outcome.bind_ok,
    hd 3 (by omega), Outcome.bind_ok, hd 4 (by omega), Outcome.bind_ok, hd 5 (by omega), Outcome.bind_ok, hd 6 (by omega), Outcome.bind_ok]
  obtain ⟨h1, h2⟩ := hv
  have ha : ∀ a b : K, (Fl.exact K).add (.fin a) (.fin b) = .fin (a + b) := fun _ _ => rfl
  have hs : ∀ a b : K, (Fl.exact K).sub (.fin a) (.fin b) = .fin (a - b) := fun a b => by rw [sub_eq_add_neg]; rfl
  have hml : ∀ a b : K, (Fl.exact K).mul (.fin a) (.fin b) = .fin (a * b) := fun _ _ => rfl
  interval_cases variant <;>
    simp only [Nat.reduceEqDiff, or_false, or_true, false_or, if_true, if_false, mutationOf, mutant, Who.val, List.zipIdx_cons, List.zipIdx_nil,
      List.map_cons, List.map_nil, List.sum_cons, List.sum_nil, ha, hs, hml, Outcome.ok.injEq, Fl.fin.injEq] <;> ring

/-! ## C98 -/

/-- values in a range -/
def Within (lo hi : K) (l : List (Fl K)) : Prop := ∀ a ∈ l, ∃ q, a = .fin q ∧ lo ≤ q ∧ q ≤ hi

/-- what a new `F` of jDE is -/
def JdeRange (op : Fl.Ops K) (lo hi : K) : Prop :=
  ∀ u : K, 0 ≤ u → u ≤ 1 → ∃ q, op.add (op.mul (.fin u) (.fin (9 / 10))) (.fin (1 / 10)) = .fin q ∧ lo ≤ q ∧ q ≤ hi

omit [IsStrictOrderedRing K] [Field K] in
theorem within_set {lo hi : K} {l : List (Fl K)} {i : Nat} {a : Fl K} (h : Within lo hi l) (ha : ∃ q, a = .fin q ∧ lo ≤ q ∧ q ≤ hi) :
    Within lo hi (l.set i a) := by
  intro b hb
  rcases List.mem_or_eq_of_mem_set hb with hb | rfl
  · exact h b hb
  · exact ha

omit [IsStrictOrderedRing K] in
theorem tried_within {op : Fl.Ops K} {lo hi : K} (hj : JdeRange op lo hi) {P : AProb K} {NP : Nat} {VarOk : Nat → Nat → Prop} {G h h' : Herd K} {i : Nat}
    (ht : Tried op P 1 NP VarOk G i h h') (hF : Within lo hi h.F) (hC : Within 0 1 h.CR) : Within lo hi h'.F ∧ Within 0 1 h'.CR := by
  obtain ⟨y, f, fi, F, CR, W, ⟨r, w, xi, mm, _, _, _, hT, _⟩, _, _, _, rfl⟩ := ht
  obtain ⟨h1, h2⟩ := hT.1 rfl
  have eF : ∃ q, F = .fin q ∧ lo ≤ q ∧ q ≤ hi := by
    rcases h1 with h1 | ⟨u, u0, u1, rfl⟩
    · exact hF _ (List.mem_of_getElem? h1)
    · exact hj u u0 u1
  have eC : ∃ q, CR = .fin q ∧ 0 ≤ q ∧ q ≤ 1 := by
    rcases h2 with h2 | ⟨u, u0, u1, rfl⟩
    · exact hC _ (List.mem_of_getElem? h2)
    · exact ⟨u, rfl, u0, u1⟩
  split
  · split
    · exact ⟨within_set hF eF, within_set hC eC⟩
    · exact ⟨within_set hF eF, within_set hC eC⟩
  · exact ⟨hF, hC⟩

omit [IsStrictOrderedRing K] in
theorem generation_within {clean : Prop} {op : Fl.Ops K} {lo hi : K} (hj : JdeRange op lo hi) {P : AProb K} {NP : Nat} {VarOk : Nat → Nat → Prop}
    {h h' : Herd K} (ht : AdGeneration clean op P 1 NP VarOk h h') (hF : Within lo hi h.F) (hC : Within 0 1 h.CR) :
    Within lo hi h'.F ∧ Within 0 1 h'.CR := by
  have : ∀ n (G a b : Herd K), InTurn (Tried op P 1 NP VarOk G) n a b → Within lo hi a.F → Within 0 1 a.CR → Within lo hi b.F ∧ Within 0 1 b.CR := by
    intro n G a b ht
    induction ht with
    | zero a => exact fun h1 h2 => ⟨h1, h2⟩
    | succ _ h3 ih =>
      intro h1 h2
      exact tried_within hj h3 (ih h1 h2).1 (ih h1 h2).2
  exact this NP h h h' ht.2 hF hC

/-- C98. jDE: after a run of `sade` or `de1220` every `CR` is in `[0, 1]` and every `F` in the range of new values, if this
was so before with `memory`. -/
theorem C98_jde (v : Env K σ) (lo hi : K) (hj : JdeRange v.op lo hi) (P : AProb K) (gens : Nat) (ftol xtol : Fl K) (VarOk : Nat → Nat → Prop)
    (s s' : St K σ) (m0 m' : AdMem K) (hm : (Within lo hi m0.F ∧ Within 0 1 m0.CR) ∨ FreshPars v.op 1 s.pop.id.length m0.F m0.CR)
    (h : AdDone v P gens 1 ftol xtol VarOk s m0 m' s') : Within lo hi m'.F ∧ Within 0 1 m'.CR := by
  have hm : Within lo hi m0.F ∧ Within 0 1 m0.CR := by
    rcases hm with hm | hm
    · exact hm
    · obtain ⟨_, _, h3, _⟩ := hm
      obtain ⟨h4, h5⟩ := h3 rfl
      refine ⟨fun a ha => ?_, fun a ha => ?_⟩
      · obtain ⟨u, u0, u1, rfl⟩ := h4 a ha
        exact hj u u0 u1
      · obtain ⟨u, u0, u1, rfl⟩ := h5 a ha
        exact ⟨u, rfl, u0, u1⟩
  obtain ⟨a, b, _, _, _, eF, eC, _, _, _, hr, _, _, _, _, bF, bC, _⟩ := h.run
  rw [← eF, ← eC] at hm
  rw [← bF, ← bC]
  have steps : ∀ n (a b : Herd K), Steps (fun a b => AdGeneration (∀ f ∈ s.pop.f, Fl.nan ∉ f) v.op P 1 s.pop.id.length VarOk a b ∧
      ¬ Flat v P ftol xtol s.pop.tol b.x b.f) n a b → Within lo hi a.F ∧ Within 0 1 a.CR → Within lo hi b.F ∧ Within 0 1 b.CR := by
    intro n a b hs
    induction hs with
    | refl a => exact fun h => h
    | snoc _ h3 ih =>
      intro h1
      exact generation_within hj h3.1 (ih h1).1 (ih h1).2
  rcases hr with hr | ⟨k, h1, _, hs, hg, _⟩
  · exact steps _ _ _ hr hm
  · have := steps _ _ _ hs hm
    exact generation_within hj hg this.1 this.2

/-- C98. In exact arithmetic the range of `F` is `[0.1, 1]`. -/
theorem C98_range_exact : JdeRange (Fl.exact K) (1 / 10) 1 := by
  intro u h0 h1
  refine ⟨u * (9 / 10) + 1 / 10, rfl, ?_, ?_⟩
  · have := mul_nonneg h0 (show (0 : K) ≤ 9 / 10 by norm_num)
    linarith
  · have := mul_le_mul_of_nonneg_right h1 (show (0 : K) ≤ 9 / 10 by norm_num)
    linarith

/-- C98. With rounding (any monotone one) it is the interval between the roundings of its ends. -/
theorem C98_range_rounded (rnd : K → K) (hmono : Monotone rnd) (h0 : rnd 0 = 0) :
    JdeRange (Fl.rounded K rnd) (rnd (1 / 10)) (rnd (rnd (9 / 10) + 1 / 10)) := by
  intro u u0 u1
  refine ⟨rnd (rnd (u * (9 / 10)) + 1 / 10), rfl, hmono ?_, hmono ?_⟩
  · have := hmono (mul_nonneg u0 (show (0 : K) ≤ 9 / 10 by norm_num))
    rw [h0] at this
    linarith
  · have : rnd (u * (9 / 10)) ≤ rnd (9 / 10) := hmono (by
      have := mul_le_mul_of_nonneg_right u1 (show (0 : K) ≤ 9 / 10 by norm_num)
      linarith)
    linarith

omit [IsStrictOrderedRing K] in
/-- C98. jDE: `F` is the individual's own, or `0.1 + 0.9 u'` if the first number drawn is not below 0.9; then likewise `CR`, where the new
value is the number drawn. -/
theorem C98_jde_draws (v : Env K σ) (D : Dist K σ) (variant : Nat) (mF mCR : List (Fl K)) (iF iCR : Fl K) (i : Nat) (r : List Nat) (F CR : Fl K)
    (hF : mF[i]? = some F) (hCR : mCR[i]? = some CR) (e0 e1 e2 e3 e4 : σ) (u u' w w' : K) (h0 : v.g.draw01 e0 = (.ok (.fin u), e1))
    (h1 : if u < 9 / 10 then e2 = e1 else v.g.draw01 e1 = (.ok (.fin u'), e2)) (h2 : v.g.draw01 e2 = (.ok (.fin w), e3))
    (h3 : if w < 9 / 10 then e4 = e3 else v.g.draw01 e3 = (.ok (.fin w'), e4)) :
    adTune v D 1 variant mF mCR iF iCR i r e0 =
      (.ok (if u < 9 / 10 then F else v.op.add (v.op.mul (.fin u') (.fin (9 / 10))) (.fin (1 / 10)), if w < 9 / 10 then CR else .fin w'), e4) := by
  have lt : ∀ a : K, (Fl.lt (.fin a) (.fin (9 / 10)) = true) ↔ a < 9 / 10 := fun a => by simp [Fl.lt]
  have eF : jdeF v mF i e0 = (.ok (if u < 9 / 10 then F else v.op.add (v.op.mul (.fin u') (.fin (9 / 10))) (.fin (1 / 10))), e2) := by
    unfold jdeF
    show Run.bind _ _ _ = _
    unfold Run.bind
    rw [h0]
    dsimp only
    by_cases hu : u < 9 / 10
    · rw [if_pos ((lt u).mpr hu), if_pos hu]
      rw [if_pos hu] at h1
      rw [h1, Outcome.get_eq_ok_iff.mpr hF]; rfl
    · rw [if_neg (fun h => hu ((lt u).mp h)), if_neg hu]
      rw [if_neg hu] at h1
      show Run.bind _ _ _ = _
      unfold Run.bind
      rw [h1]; rfl
  have eC : jdeCR v mCR i e2 = (.ok (if w < 9 / 10 then CR else .fin w'), e4) := by
    unfold jdeCR
    show Run.bind _ _ _ = _
    unfold Run.bind
    rw [h2]
    dsimp only
    by_cases hu : w < 9 / 10
    · rw [if_pos ((lt w).mpr hu), if_pos hu]
      rw [if_pos hu] at h3
      rw [h3, Outcome.get_eq_ok_iff.mpr hCR]; rfl
    · rw [if_neg (fun h => hu ((lt w).mp h)), if_neg hu]
      rw [if_neg hu] at h3
      exact h3
  unfold adTune
  rw [if_pos rfl]
  show Run.bind _ _ _ = _
  unfold Run.bind
  rw [eF]
  dsimp only
  show Run.bind _ _ _ = _
  unfold Run.bind
  rw [eC]; rfl

/-- iDE: the base and the differences for `F` (as for the mutation, but for 15 and 16). -/
def tuneF (variant : Nat) : Who × List (Who × Who) :=
  if variant = 15 ∨ variant = 16 then (.ind 0, [(.ind 1, .own), (.ind 3, .ind 4)]) else mutationOf variant

/-- iDE: the base and the differences for `CR`, where there is a number drawn for each difference. The formulas for 11 to 14 are
different. -/
def tuneCR (variant : Nat) : Who × List (Who × Who) :=
  if variant = 15 ∨ variant = 16 then (.ind 0, [(.ind 1, .own), (.ind 3, .ind 4)])
  else if variant = 17 ∨ variant = 18 then (.ind 0, [(.ind 1, .own), (.best, .ind 3)]) else mutationOf variant

omit [IsStrictOrderedRing K] in
theorem par_eq {m : List (Fl K)} {r : List Nat} {k : Nat} {a : Fl K} (h : ∃ j : Nat, r[k]? = some j ∧ m[j]? = some a) : par m r k = .ok a := by
  obtain ⟨j, h1, h2⟩ := h
  unfold par
  rw [Outcome.get_eq_ok_iff.mpr h1, Outcome.bind_ok, Outcome.get_eq_ok_iff.mpr h2]

/-- C98. iDE: `F` of a trial is a base value plus a sum of differences, each with a weight of half a normally distributed number. In
exact arithmetic. -/
theorem C98_ide_F (b o : K) (p z : Nat → K) (variant : Nat) (zs m : List (Fl K)) (i : Nat) (r : List Nat)
    (hv : 1 ≤ variant ∧ variant ≤ 18) (hz : zs = (List.range (ideCountF variant)).map (fun k => .fin (z k))) (ho : m[i]? = some (.fin o))
    (hp : ∀ k, k < 7 → ∃ j : Nat, r[k]? = some j ∧ m[j]? = some (.fin (p k))) :
    (tuneF variant).2.length = ideCountF variant ∧
    ideF (Fl.exact K) variant zs m (.fin b) i r = .ok (.fin (mutant (Who.val b o p) (fun k => z k / 2) (tuneF variant))) := by
  have hd : ∀ k, k < 7 → par m r k = .ok (.fin (p k)) := fun k hk => par_eq (hp k hk)
  unfold ideF
  rw [Outcome.get_eq_ok_iff.mpr ho, Outcome.bind_ok, hd 0 (by omega), Outcome.bind_ok, hd 1 (by omega), Outcome.bind_ok, hd 2 (by omega), Outcome.bind_ok,
    hd 3 (by omega), Outcome.bind_ok, hd 4 (by omega), Outcome.bind_ok, hd 5 (by omega), Outcome.bind_ok, hd 6 (by omega), Outcome.bind_ok]
  obtain ⟨h1, h2⟩ := hv
  subst hz
  have ha : ∀ a b : K, (Fl.exact K).add (.fin a) (.fin b) = .fin (a + b) := fun _ _ => rfl
  have hs : ∀ a b : K, (Fl.exact K).sub (.fin a) (.fin b) = .fin (a - b) := fun a b => by rw [sub_eq_add_neg]; rfl
  have hml : ∀ a b : K, (Fl.exact K).mul (.fin a) (.fin b) = .fin (a * b) := fun _ _ => rfl
  interval_cases variant <;>
    simp [tuneF, ideCountF, mutationOf, mutant, Who.val, List.range_succ, kick, ha, hs, hml] <;> first | ring1 | (ring_nf; simp)

/-- C98. iDE: `CR` of a trial. -/
theorem C98_ide_CR (b o : K) (p z : Nat → K) (variant : Nat) (zs m : List (Fl K)) (i : Nat) (r : List Nat)
    (hv : 1 ≤ variant ∧ variant ≤ 18) (hz : zs = (List.range (ideCountCR variant)).map (fun k => .fin (z k))) (ho : m[i]? = some (.fin o))
    (hp : ∀ k, k < 5 → ∃ j : Nat, r[k]? = some j ∧ m[j]? = some (.fin (p k))) :
    (11 ≤ variant ∧ variant ≤ 14 → ideCountCR variant = 1 ∧ ideCR (Fl.exact K) variant zs m (.fin b) i r =
      .ok (.fin ((if variant ≤ 12 then p 4 else b) + z 0 / 2 * (p 0 + p 1 - p 2 - p 3)))) ∧
    (¬ (11 ≤ variant ∧ variant ≤ 14) → (tuneCR variant).2.length = ideCountCR variant ∧
      ideCR (Fl.exact K) variant zs m (.fin b) i r = .ok (.fin (mutant (Who.val b o p) (fun k => z k / 2) (tuneCR variant)))) := by
  have hd : ∀ k, k < 5 → par m r k = .ok (.fin (p k)) := fun k hk => par_eq (hp k hk)
  unfold ideCR
  rw [Outcome.get_eq_ok_iff.mpr ho, Outcome.bind_ok, hd 0 (by omega), Outcome.bind_ok, hd 1 (by omega), Outcome.bind_ok, hd 2 (by omega), Outcome.bind_ok,
    hd 3 (by omega), Outcome.bind_ok, hd 4 (by omega), Outcome.bind_ok]
  obtain ⟨h1, h2⟩ := hv
  subst hz
  have ha : ∀ a b : K, (Fl.exact K).add (.fin a) (.fin b) = .fin (a + b) := fun _ _ => rfl
  have hs : ∀ a b : K, (Fl.exact K).sub (.fin a) (.fin b) = .fin (a - b) := fun a b => by rw [sub_eq_add_neg]; rfl
  have hml : ∀ a b : K, (Fl.exact K).mul (.fin a) (.fin b) = .fin (a * b) := fun _ _ => rfl
  interval_cases variant <;>
    simp [tuneCR, ideCountCR, mutationOf, mutant, Who.val, List.range_succ, kick, ha, hs, hml] <;> first | ring1 | (ring_nf; simp)

/-! ## C99 -/

omit [IsStrictOrderedRing K] in
/-- C99. The constructor throws `std::invalid_argument` unless every variant is one of 1, …, 18 and the adaptation scheme 1 or 2. -/
theorem C99_ctor (gens adptv : Nat) (allowed : List Nat) (ftol xtol : Fl K) (memory : Bool) :
    ((∀ w ∈ allowed, 1 ≤ w ∧ w ≤ 18) ∧ (adptv = 1 ∨ adptv = 2) → de1220Ctor gens allowed adptv ftol xtol memory = .ok ⟨gens, allowed, adptv, ftol, xtol, memory⟩) ∧
    (¬ ((∀ w ∈ allowed, 1 ≤ w ∧ w ≤ 18) ∧ (adptv = 1 ∨ adptv = 2)) → de1220Ctor gens allowed adptv ftol xtol memory = .throws .invalidArgument) := by
  have key : (allowed.any (fun v => decide (v < 1) || decide (v > 18)) = true) ↔ ¬ ∀ w ∈ allowed, 1 ≤ w ∧ w ≤ 18 := by
    rw [List.any_eq_true]
    push Not
    refine exists_congr (fun w => and_congr_right (fun _ => ?_))
    simp only [Bool.or_eq_true, decide_eq_true_eq]
    omega
  unfold de1220Ctor
  refine ⟨fun h => ?_, fun h => ?_⟩
  · rw [if_neg (fun h' => key.mp h' h.1), if_neg (by omega)]
  · by_cases h1 : ∀ w ∈ allowed, 1 ≤ w ∧ w ≤ 18
    · rw [if_neg (fun h' => key.mp h' h1), if_pos]
      by_contra h2
      exact h ⟨h1, by omega⟩
    · rw [if_pos (key.mpr h1)]

/-- C99. As C97 for `de1220`, with a list of at least one allowed variant. The variant of a trial is the one of the individual, or any
allowed one; it is kept with the trial. Only allowed variants are used, ever. -/
theorem C99_evolve_partial (v : Env K σ) (rep : K → Prop) (hg : v.g.Lawful rep) (hop : NoOverflow v.op) (D : Dist K σ) (P : AProb K)
    (hP : FiniteBox P) (hnobj : P.info.nobj = 1) (hnc : P.info.nc = 0) (hst : P.info.stochastic = false) (gens adptv : Nat) (allowed : List Nat)
    (hne : allowed ≠ []) (hal : allowed.length < 2 ^ 64)
    (ftol xtol : Fl K) (memory : Bool) (A : De1220 K) (hA : de1220Ctor gens allowed adptv ftol xtol memory = .ok A) (hgens : gens + 1 < 2 ^ 32)
    (s : St K σ) (hi : Inv P.info s.pop) (h7 : 7 ≤ s.pop.id.length) (hsz : s.pop.id.length ≤ 2 ^ 63)
    (hbox : ∀ x ∈ s.pop.x, InBox P.lb P.ub 0 x) (m : AdMem K) (hm : AllFin m.F ∧ AllFin m.CR) (hmV : ∀ w ∈ m.V, w ∈ allowed) (fuel : Nat)
    (hfuel : gens < fuel) :
    wp (de1220Evolve v D P A fuel m)
      (fun m' s' => (gens = 0 → m' = m ∧ s' = s) ∧
        (0 < gens → (∀ w ∈ m'.V, w ∈ allowed) ∧
          ∃ m0, AdDone v P gens adptv ftol xtol (fun w W => w ∈ allowed ∧ (W = w ∨ W ∈ allowed)) s m0 m' s' ∧
          (if memory = true ∧ m.F.length = s.pop.id.length ∧ m.CR.length = s.pop.id.length ∧ m.V.length = s.pop.id.length then m0 = m
            else FreshPars v.op adptv s.pop.id.length m0.F m0.CR ∧ m0.V.length = s.pop.id.length ∧ ∀ w ∈ m0.V, w ∈ allowed)))
      (RunFailed P s) s := by
  have hA' : A = ⟨gens, allowed, adptv, ftol, xtol, memory⟩ ∧ ∀ w ∈ allowed, 1 ≤ w ∧ w ≤ 18 := by
    obtain ⟨c1, c2⟩ := C99_ctor gens adptv allowed ftol xtol memory
    by_cases h : (∀ w ∈ allowed, 1 ≤ w ∧ w ≤ 18) ∧ (adptv = 1 ∨ adptv = 2)
    · rw [c1 h, Outcome.ok.injEq] at hA
      exact ⟨hA.symm, h.1⟩
    · rw [c2 h] at hA; cases hA
  obtain ⟨rfl, hv⟩ := hA'
  have hnf : P.info.nf = 1 := by simp only [Info.nf, Info.nc] at *; omega
  unfold de1220Evolve
  rw [if_neg (by omega), if_neg (by omega), if_neg (by simp [hst])]
  split
  · rename_i h0
    have h0 : gens = 0 := h0
    exact ⟨fun _ => ⟨rfl, rfl⟩, fun h => by omega⟩
  · rename_i h0
    have h0 : 0 < gens := Nat.pos_of_ne_zero h0
    rw [wp_bind, wp_get', if_neg (by omega), wp_bind, wp_onRng]
    have hpick : PickOk (σ := σ) (de1220Pick v allowed) (fun w W => w ∈ allowed ∧ (W = w ∨ W ∈ allowed)) (fun w => w ∈ allowed) := by
      intro w s E hw
      unfold de1220Pick
      rw [wp_bind]
      refine Gen.wp_draw01 hg (fun a s' _ _ => ?_)
      split
      · exact ⟨⟨hw, Or.inl rfl⟩, hw⟩
      · exact (wp_drawVariant hg hne hal).mono (fun W _ hW => ⟨⟨hw, Or.inr hW⟩, hW⟩) (fun _ _ h => h)
    have run : ∀ (m0 : AdMem K) (e : σ), (m0.F.length = s.pop.id.length ∧ AllFin m0.F) → (m0.CR.length = s.pop.id.length ∧ AllFin m0.CR) →
        (m0.V.length = s.pop.id.length ∧ ∀ w ∈ m0.V, w ∈ allowed) →
        (if memory = true ∧ m.F.length = s.pop.id.length ∧ m.CR.length = s.pop.id.length ∧ m.V.length = s.pop.id.length then m0 = m
            else FreshPars v.op adptv s.pop.id.length m0.F m0.CR ∧ m0.V.length = s.pop.id.length ∧ ∀ w ∈ m0.V, w ∈ allowed) →
        wp (adRun v D P gens adptv ftol xtol (de1220Pick v allowed) fuel m0) (fun m' s' => (gens = 0 → m' = m ∧ s' = s) ∧
          (0 < gens → (∀ w ∈ m'.V, w ∈ allowed) ∧
          ∃ m0, AdDone v P gens adptv ftol xtol (fun w W => w ∈ allowed ∧ (W = w ∨ W ∈ allowed)) s m0 m' s' ∧
          (if memory = true ∧ m.F.length = s.pop.id.length ∧ m.CR.length = s.pop.id.length ∧ m.V.length = s.pop.id.length then m0 = m
            else FreshPars v.op adptv s.pop.id.length m0.F m0.CR ∧ m0.V.length = s.pop.id.length ∧ ∀ w ∈ m0.V, w ∈ allowed)))
          (RunFailed P s) { s with e := e } := by
      intro m0 e hF hCR hV hst
      refine (wp_adRun (s0 := s) (s := { s with e := e }) hg hop (D := D) (adptv := adptv) hpick (fun w hw => (hv w hw).1) hP hnobj hnc hi h7 hsz hbox ftol xtol hgens h0 hfuel hF hCR
        hV ⟨rfl, rfl⟩).mono ?_ (fun _ _ h => h)
      rintro m' s' ⟨h, h'⟩
      exact ⟨fun h => by omega, fun _ => ⟨h', m0, h, hst⟩⟩
    unfold de1220Start
    dsimp only
    split
    · rename_i hc
      rw [wp_bind]
      refine (wp_adInit hg).mono ?_ (fun _ _ h => absurd h id)
      rintro ⟨CR, F⟩ e hfr
      obtain ⟨f1, f2⟩ := freshPars_fin hop hfr
      rw [wp_bind]
      refine (wp_initV hg hne hal).mono ?_ (fun _ _ h => h)
      rintro V e' ⟨hV1, hV2⟩
      rw [wp_pure]
      refine run _ e' f1 f2 ⟨hV1, hV2⟩ ?_
      rw [if_neg]
      · exact ⟨hfr, hV1, hV2⟩
      · rintro ⟨h1, h2, h3, h4⟩
        rcases hc with hc | hc | hc | hc
        · exact hc h3
        · exact hc h2
        · exact hc h4
        · rw [h1] at hc; cases hc
    · rename_i hc
      push Not at hc
      rw [wp_pure]
      refine run _ s.e ⟨hc.2.1, hm.1⟩ ⟨hc.1, hm.2⟩ ⟨hc.2.2.1, hmV⟩ ?_
      rw [if_pos ⟨by simpa using hc.2.2.2, hc.2.1, hc.1, hc.2.2.1⟩]

omit [IsStrictOrderedRing K] in
/-- C99. `evolve` throws `std::invalid_argument`, and leaves all as it was, for the same reasons as that of `sade`. -/
theorem C99_throws (v : Env K σ) (D : Dist K σ) (P : AProb K) (A : De1220 K) (fuel : Nat) (m : AdMem K) (s : St K σ)
    (h : P.info.nc ≠ 0 ∨ P.info.nobj ≠ 1 ∨ P.info.stochastic = true ∨ (A.gens ≠ 0 ∧ s.pop.id.length < 7)) :
    de1220Evolve v D P A fuel m s = (.throws .invalidArgument, s) := by
  unfold de1220Evolve
  by_cases h1 : P.info.nc ≠ 0
  · rw [if_pos h1]; rfl
  rw [if_neg h1]
  by_cases h2 : P.info.nf ≠ 1
  · rw [if_pos h2]; rfl
  rw [if_neg h2]
  by_cases h3 : P.info.stochastic = true
  · rw [if_pos h3]; rfl
  rw [if_neg h3]
  have h4 : A.gens ≠ 0 ∧ s.pop.id.length < 7 := by
    rcases h with h | h | h | h
    · exact absurd h h1
    · simp only [Info.nf, Info.nc] at *; omega
    · exact absurd h h3
    · exact h
  rw [if_neg h4.1]
  show (if s.pop.id.length < 7 then _ else _ : Run (St K σ) (AdMem K)) s = _
  rw [if_pos h4.2]; rfl

/-- C99. The variant of a trial: the one of the individual if the number drawn is below 0.9, else one drawn from the list. -/
theorem C99_variant (v : Env K σ) (allowed : List Nat) (w : Nat) (e e1 : σ) (u : K) (h : v.g.draw01 e = (.ok (.fin u), e1)) :
    (u < 9 / 10 → de1220Pick v allowed w e = (.ok w, e1)) ∧
    (¬ u < 9 / 10 → ∀ (k : Nat) (e2 : σ) (W : Nat), allowed[k]? = some W → allowed.length < 2 ^ 64 → v.g.drawNat 0 (allowed.length - 1) e1 = (.ok k, e2) →
      de1220Pick v allowed w e = (.ok W, e2)) := by
  have lt : (Fl.lt (.fin u) (.fin (9 / 10)) = true) ↔ u < 9 / 10 := by simp [Fl.lt]
  unfold de1220Pick
  refine ⟨fun hu => ?_, fun hu k e2 W hk hal hd => ?_⟩
  · show Run.bind _ _ _ = _
    unfold Run.bind
    rw [h]
    dsimp only
    rw [if_pos (lt.mpr hu)]; rfl
  · show Run.bind _ _ _ = _
    unfold Run.bind
    rw [h]
    dsimp only
    rw [if_neg (fun h' => hu (lt.mp h'))]
    have hpos := (List.getElem?_eq_some_iff.mp hk).1
    unfold drawVariant
    rw [show (allowed.length + (2 ^ 64 - 1)) % 2 ^ 64 = allowed.length - 1 by omega]
    show Run.bind _ _ _ = _
    unfold Run.bind
    rw [hd]
    dsimp only
    rw [Outcome.get_eq_ok_iff.mpr hk]; rfl

/-- C99. With an empty list, which the constructor accepts, `evolve` has undefined behaviour: for every problem it works
with, every engine and every population of at least seven. -/
theorem C99_undefined (v : Env K σ) (rep : K → Prop) (hg : v.g.Lawful rep) (D : Dist K σ) (P : AProb K) (hnobj : P.info.nobj = 1)
    (hnc : P.info.nc = 0) (hst : P.info.stochastic = false) (gens adptv : Nat) (h0 : 0 < gens) (had : adptv = 1 ∨ adptv = 2) (ftol xtol : Fl K) (s : St K σ)
    (h7 : 7 ≤ s.pop.id.length) (fuel : Nat) :
    ∃ A, de1220Ctor gens [] adptv ftol xtol false = .ok A ∧ (de1220Evolve v D P A fuel ⟨[], [], []⟩ s).1 = .ub := by
  refine ⟨_, (C99_ctor gens adptv [] ftol xtol false).1 ⟨by simp, had⟩, ?_⟩
  have hnf : P.info.nf = 1 := by simp only [Info.nf, Info.nc] at *; omega
  have hub : ∀ e : σ, ∃ e', drawVariant v.g [] e = (.ub, e') := by
    intro e
    have hk : ∃ k e', v.g.drawNat 0 ((([] : List Nat).length + (2 ^ 64 - 1)) % 2 ^ 64) e = (.ok k, e') := ⟨_, _, if_pos (Nat.zero_le _)⟩
    obtain ⟨k, e', hk⟩ := hk
    refine ⟨e', ?_⟩
    unfold drawVariant
    show Run.bind _ _ _ = _
    unfold Run.bind
    rw [hk]
    rfl
  obtain ⟨⟨CR, F⟩, e1, h1, _⟩ | ⟨_, _, _, hf⟩ := wp_iff_exists.mp (wp_adInit (E := fun _ _ => False) (v := v) (D := D) (adptv := adptv) (NP := s.pop.id.length) (s := s.e) hg)
  · obtain ⟨e2, h2⟩ := hub e1
    obtain ⟨n, hn⟩ : ∃ n, s.pop.id.length = n + 1 := ⟨s.pop.id.length - 1, by omega⟩
    have h3 : (List.range s.pop.id.length).foldlM (initVStep v.g []) [] e1 = (.ub, e2) := by
      rw [hn, List.range_succ_eq_map, List.foldlM_cons]
      have h3 : initVStep v.g [] [] 0 e1 = (.ub, e2) := by
        unfold initVStep
        show Run.bind _ _ _ = _
        unfold Run.bind
        rw [h2]
      show Run.bind (initVStep v.g [] [] 0) _ e1 = _
      unfold Run.bind
      rw [h3]
    have h4 : de1220Start v D ⟨gens, [], adptv, ftol, xtol, false⟩ s.pop.id.length ⟨[], [], []⟩ s.e = (.ub, e2) := by
      unfold de1220Start
      rw [if_pos (Or.inr (Or.inr (Or.inr rfl)))]
      show Run.bind _ _ _ = _
      unfold Run.bind
      rw [h1]
      show Run.bind _ _ _ = _
      unfold Run.bind
      rw [h3]
    unfold de1220Evolve
    rw [if_neg (by omega), if_neg (by omega), if_neg (by simp [hst]), if_neg (by dsimp only; omega)]
    show ((if s.pop.id.length < 7 then _ else _ : Run (St K σ) (AdMem K)) s).1 = _
    rw [if_neg (by omega)]
    show (Run.bind _ _ _).1 = _
    unfold Run.bind onRng
    rw [h4]
  · exact hf.elim

end

/-! ## Examples -/

/-- seven individuals -/
def adDemoSt : St ℚ (List ℚ) :=
  ⟨⟨[5, 6, 7, 8, 9, 10, 11], [[.fin 3], [.fin 1], [.fin 2], [.fin 5], [.fin 4], [.fin 7], [.fin 6]],
    [[.fin 9], [.fin 1], [.fin 4], [.fin 25], [.fin 16], [.fin 49], [.fin 36]],
    [.fin 1], [.fin 1], [], fun n => n, []⟩, [1 / 3, 2 / 3, 1 / 2, 1 / 5, 3 / 4, 1, 1 / 4], []⟩

theorem adDemo_inv : Inv algDemo.info adDemoSt.pop where
  wf := ⟨rfl, rfl, by decide +kernel, by decide +kernel⟩
  ch := Or.inr ⟨rfl, rfl⟩
  tol := rfl

theorem adDemo_box : ∀ x ∈ adDemoSt.pop.x, InBox algDemo.lb algDemo.ub 0 x := by
  intro x hx
  have : ∃ a : ℚ, x = [.fin a] ∧ 0 ≤ a ∧ a ≤ 10 := by
    simp only [adDemoSt, List.mem_cons, List.not_mem_nil, or_false] at hx
    rcases hx with rfl | rfl | rfl | rfl | rfl | rfl | rfl <;> exact ⟨_, rfl, by norm_num, by norm_num⟩
  obtain ⟨a, rfl, h1, h2⟩ := this
  refine inBox0 rfl ?_
  intro i l u w hl hu hw
  match i with
  | 0 => cases hl; cases hu; cases hw; simpa using ⟨h1, h2⟩
  | i + 1 => simp [algDemo] at hl

example : wp (sadeEvolve algDemoEnv sgaDist algDemo ⟨3, 2, 1, .fin 0, .fin 0, true⟩ 4 ⟨[], [], []⟩)
      (fun m' s' => (3 = 0 → m' = (⟨[], [], []⟩ : AdMem ℚ) ∧ s' = adDemoSt) ∧
        (0 < 3 → ∃ m0, AdDone algDemoEnv algDemo 3 1 (.fin 0) (.fin 0) (fun w W => W = w) adDemoSt m0 m' s' ∧
          m0.V = List.replicate adDemoSt.pop.id.length 2 ∧
          (if true = true ∧ ([] : List (Fl ℚ)).length = adDemoSt.pop.id.length ∧ ([] : List (Fl ℚ)).length = adDemoSt.pop.id.length then m0.F = [] ∧ m0.CR = []
            else FreshPars algDemoEnv.op 1 adDemoSt.pop.id.length m0.F m0.CR)))
      (RunFailed algDemo adDemoSt) adDemoSt :=
  C97_evolve algDemoEnv _ demoGen_lawful noOverflow_exact sgaDist algDemo algDemo_finiteBox rfl rfl rfl 3 2 1 (.fin 0) (.fin 0) true _ (by decide +kernel)
    (by norm_num) adDemoSt adDemo_inv (by decide) (by decide) adDemo_box ⟨[], [], []⟩ ⟨(fun _ hv => nomatch hv), (fun _ hv => nomatch hv)⟩ 4 (by norm_num)

example : wp (de1220Evolve algDemoEnv sgaDist algDemo ⟨3, [2, 7, 11], 2, .fin 0, .fin 0, true⟩ 4 ⟨[], [], []⟩)
      (fun m' s' => (3 = 0 → m' = (⟨[], [], []⟩ : AdMem ℚ) ∧ s' = adDemoSt) ∧
        (0 < 3 → (∀ w ∈ m'.V, w ∈ [2, 7, 11]) ∧
          ∃ m0, AdDone algDemoEnv algDemo 3 2 (.fin 0) (.fin 0) (fun w W => w ∈ [2, 7, 11] ∧ (W = w ∨ W ∈ [2, 7, 11])) adDemoSt m0 m' s' ∧
          (if true = true ∧ ([] : List (Fl ℚ)).length = adDemoSt.pop.id.length ∧ ([] : List (Fl ℚ)).length = adDemoSt.pop.id.length ∧
              ([] : List Nat).length = adDemoSt.pop.id.length then m0 = ⟨[], [], []⟩
            else FreshPars algDemoEnv.op 2 adDemoSt.pop.id.length m0.F m0.CR ∧ m0.V.length = adDemoSt.pop.id.length ∧ ∀ w ∈ m0.V, w ∈ [2, 7, 11])))
      (RunFailed algDemo adDemoSt) adDemoSt :=
  C99_evolve_partial algDemoEnv _ demoGen_lawful noOverflow_exact sgaDist algDemo algDemo_finiteBox rfl rfl rfl 3 2 [2, 7, 11] (by simp) (by simp) (.fin 0) (.fin 0)
    true _ (by decide +kernel) (by norm_num) adDemoSt adDemo_inv (by decide) (by decide) adDemo_box ⟨[], [], []⟩
    ⟨(fun _ hv => nomatch hv), (fun _ hv => nomatch hv)⟩ (by simp) 4 (by norm_num)

/-- `F` of the trials: `C98_jde` for the run above -/
example (m0 m' : AdMem ℚ) (s' : St ℚ (List ℚ)) (hm : FreshPars algDemoEnv.op 1 7 m0.F m0.CR)
    (h : AdDone algDemoEnv algDemo 3 1 (.fin 0) (.fin 0) (fun w W => W = w) adDemoSt m0 m' s') : Within (1 / 10) 1 m'.F ∧ Within 0 1 m'.CR :=
  C98_jde algDemoEnv (1 / 10) 1 C98_range_exact algDemo 3 (.fin 0) (.fin 0) _ adDemoSt s' m0 m' (Or.inr hm) h

/-- a new `F` and the own `CR` -/
example : adTune algDemoEnv sgaDist 1 2 [.fin (1 / 2)] [.fin (1 / 4)] (.fin 0) (.fin 0) 0 [] [19 / 20, 1 / 2, 1 / 3] = (.ok (.fin (11 / 20), .fin (1 / 4)), []) := by
  have := C98_jde_draws algDemoEnv sgaDist 2 [.fin (1 / 2)] [.fin (1 / 4)] (.fin 0) (.fin 0) 0 [] (.fin (1 / 2)) (.fin (1 / 4)) rfl rfl
    [19 / 20, 1 / 2, 1 / 3] [1 / 2, 1 / 3] [1 / 3] [] [] (19 / 20) (1 / 2) (1 / 3) 0 (by decide +kernel) (by decide +kernel) (by decide +kernel) (by decide +kernel)
  rw [this]
  decide +kernel

/-- best/1: 1 + 1/2 · (3 - 2) -/
example : adGene (Fl.exact ℚ) (.fin (1 / 2)) 1 [.fin 1] [[.fin 4], [.fin 3], [.fin 2], [.fin 5], [.fin 6], [.fin 7], [.fin 8]] 0 [0, 1, 2, 3, 4, 5, 6]
    [.fin 4] 0 = .ok (.fin (mutant (Who.val 1 4 (fun k => [4, 3, 2, 5, 6, 7, 8].getD k 0)) (fun _ => 1 / 2) (mutationOf 1))) :=
  C97_formula (1 / 2) 1 4 (fun k => [4, 3, 2, 5, 6, 7, 8].getD k 0) 1 _ _ 0 _ _ [.fin 4] 0 (by omega) rfl rfl rfl rfl
    (fun k hk => by interval_cases k <;> exact ⟨_, _, rfl, rfl, rfl⟩)

/-- did it return? -/
def adOk {α : Type} : Outcome α → Bool
  | .ok _ => true
  | _ => false

/-- the problem above without bounds -/
def unboundedDemo : AProb ℚ := { algDemo with lb := [.ninf], ub := [.pinf] }

/-- C99. The documentation (de1220.hpp 88-89) says that unbounded problems produce an error. They do not: here is a run with one that makes
seven evaluations. -/
theorem C99_unbounded : ∃ (A : De1220 ℚ) (m' : AdMem ℚ) (s' : St ℚ (List ℚ)), de1220Ctor 1 [2, 3, 7] 1 (.fin 0) (.fin 0) false = .ok A ∧
    unboundedDemo.lb = [.ninf] ∧ unboundedDemo.ub = [.pinf] ∧
    de1220Evolve algDemoEnv sgaDist unboundedDemo A 2 ⟨[], [], []⟩ adDemoSt = (.ok m', s') ∧ s'.evs.length = 7 := by
  have h : (((de1220Evolve algDemoEnv sgaDist unboundedDemo ⟨1, [2, 3, 7], 1, .fin 0, .fin 0, false⟩ 2 ⟨[], [], []⟩ adDemoSt).1 |> adOk) &&
      decide ((de1220Evolve algDemoEnv sgaDist unboundedDemo ⟨1, [2, 3, 7], 1, .fin 0, .fin 0, false⟩ 2 ⟨[], [], []⟩ adDemoSt).2.evs.length = 7)) = true := by
    decide +kernel
  rcases hr : de1220Evolve algDemoEnv sgaDist unboundedDemo ⟨1, [2, 3, 7], 1, .fin 0, .fin 0, false⟩ 2 ⟨[], [], []⟩ adDemoSt with ⟨o, s'⟩
  rw [hr] at h
  cases o with
  | ok m' => exact ⟨⟨1, [2, 3, 7], 1, .fin 0, .fin 0, false⟩, m', s', by decide +kernel, rfl, rfl, hr, by simpa [adOk] using h⟩
  | _ => simp [adOk] at h

end Verif.Props
