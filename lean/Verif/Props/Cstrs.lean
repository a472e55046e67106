import Verif.Proof.Cstrs
import Verif.Props.Mbh
import Verif.Proof.Ihs
import Mathlib.Analysis.SpecialFunctions.Exp
import Mathlib.Tactic.IntervalCases

/-!
# The penalties of self-adaptive constraints handling (C85, C86, C87)
-/

set_option autoImplicit false

namespace Verif.Props

open Verif Alg Cstrs

variable {K : Type} [Field K] [LinearOrder K] [IsStrictOrderedRing K]

/-- Arithmetic as far as feasible points are concerned: a difference of `a` and something not smaller is not positive, and
zeros stay zeros. -/
structure SoundOps (op : Fl.Ops K) : Prop where
  sub : ∀ a b, Fl.le a b = true → Fl.gt (op.sub a b) (.fin 0) = false
  div : ∀ c, Fl.gt c (.fin 0) = true → op.div (.fin 0) c = .fin 0
  add : op.add (.fin 0) (.fin 0) = .fin 0

/-- every constraint is met within its tolerance -/
def MeetsAll (nec nc : Nat) (tol fit : List (Fl K)) : Prop :=
  ∀ j, j < nc → ∃ c t, fit[j + 1]? = some c ∧ tol[j]? = some t ∧ Fl.le (if j < nec then Fl.abs c else c) t = true

/-- rounding does not change the sign -/
theorem sound_rounded (rnd : K → K) (h0 : rnd 0 = 0) (hm : ∀ a b, a ≤ b → rnd a ≤ rnd b) : SoundOps (Fl.rounded K rnd) where
  sub a b h := by
    cases a <;> cases b <;> simp_all [Fl.rounded, Fl.sub, Fl.neg, Fl.add, Fl.post, Fl.gt, Fl.lt, Fl.le, Fl.eq]
    rename_i x y
    have := hm (x + -y) 0 (by rcases h with h | h <;> linarith)
    rwa [h0] at this
  div c h := by
    cases c <;> simp_all [Fl.rounded, Fl.div, Fl.post, Fl.gt, Fl.lt]
    rename_i x
    rw [if_neg h.ne']
    exact congrArg _ h0
  add := by simp [Fl.rounded, Fl.add, Fl.post, h0]

theorem sound_exact : SoundOps (Fl.exact K) where
  sub a b h := by
    cases a <;> cases b <;> simp_all [Fl.exact, Fl.sub, Fl.neg, Fl.add, Fl.gt, Fl.lt, Fl.le, Fl.eq]
    rcases h with h | h <;> linarith
  div c h := by
    cases c <;> simp_all [Fl.exact, Fl.div, Fl.gt, Fl.lt]
    rename_i x
    exact fun h' => absurd h' h.ne'
  add := by simp [Fl.exact, Fl.add]

theorem caCMax_length {op : Fl.Ops K} {nec nc : Nat} {tol : List (Fl K)} {fs : List (List (Fl K))} {c : List (Fl K)}
    (h : caCMax op nec nc tol fs = .ok c) : c.length = nc := by
  have row : ∀ (f m m' : List (Fl K)), m.length = nc → caCMaxRow op nec nc tol m f = .ok m' → m'.length = nc := by
    intro f
    have gen : ∀ (l : List Nat) (m m' : List (Fl K)), m.length = nc → l.foldlM (caCMaxCell op nec tol f) m = .ok m' → m'.length = nc := by
      intro l
      induction l with
      | nil => intro m m' hm h; cases h; exact hm
      | cons j l ih =>
        intro m m' hm h
        rw [List.foldlM_cons] at h
        obtain ⟨m1, h1, h2⟩ := bind_ok_inv h
        refine ih m1 m' ?_ h2
        unfold caCMaxCell at h1
        obtain ⟨v, _, h1⟩ := bind_ok_inv h1
        obtain ⟨d, _, h1⟩ := bind_ok_inv h1
        unfold Outcome.set at h1
        split at h1
        · cases h1; simpa using hm
        · cases h1
    exact gen _
  have gen : ∀ (l : List (List (Fl K))) (m m' : List (Fl K)), m.length = nc → l.foldlM (caCMaxRow op nec nc tol) m = .ok m' → m'.length = nc := by
    intro l
    induction l with
    | nil => intro m m' hm h; cases h; exact hm
    | cons f l ih =>
      intro m m' hm h
      rw [List.foldlM_cons] at h
      obtain ⟨m1, h1, h2⟩ := bind_ok_inv h
      exact ih m1 m' (row _ _ _ hm h1) h2
  exact gen fs _ _ (by simp) h

theorem caUpdate_cMax {op : Fl.Ops K} {nec nc : Nat} {tol : List (Fl K)} {fs : List (List (Fl K))} {pn : Penal K}
    (h : caUpdate op nec nc tol fs = .ok pn) : pn.cMax.length = nc := by
  unfold caUpdate at h
  obtain ⟨c, h1, h⟩ := bind_ok_inv h
  have := caCMax_length h1
  obtain ⟨inf, _, h⟩ := bind_ok_inv h
  dsimp only at h
  split at h
  · obtain ⟨f, _, h⟩ := bind_ok_inv h
    cases h; exact this
  · unfold caPenal at h
    obtain ⟨_, _, h⟩ := bind_ok_inv h
    obtain ⟨_, _, h⟩ := bind_ok_inv h
    obtain ⟨_, _, h⟩ := bind_ok_inv h
    obtain ⟨_, _, h⟩ := bind_ok_inv h
    obtain ⟨_, _, h⟩ := bind_ok_inv h
    obtain ⟨_, _, h⟩ := bind_ok_inv h
    obtain ⟨_, _, h⟩ := bind_ok_inv h
    obtain ⟨_, _, h⟩ := bind_ok_inv h
    obtain ⟨_, _, h⟩ := bind_ok_inv h
    obtain ⟨_, _, h⟩ := bind_ok_inv h
    obtain ⟨_, _, h⟩ := bind_ok_inv h
    cases h; exact this

/-- C85 (feasible points). Whatever the reference population is (also with NaN or infinite fitness values), a point that
meets all constraints within the tolerances has the same objective in the penalized problem. Holds for rounded arithmetic
(`sound_rounded`). -/
theorem C85_feasible (op : Fl.Ops K) (hop : SoundOps op) (ex : Fl K → Fl K) (nec nc : Nat) (tol : List (Fl K))
    (fs : List (List (Fl K))) (pn : Penal K) (hpn : caUpdate op nec nc tol fs = .ok pn) (hnc : 0 < nc) (y : Fl K) (fit : List (Fl K))
    (h0 : fit[0]? = some y) (h : MeetsAll nec nc tol fit) : caValue op ex nec nc tol pn fit = .ok y := by
  have hc := caUpdate_cMax hpn
  have hi : caInfeas op nec nc tol pn.cMax fit = .ok (.fin 0) := by
    have := Outcome.range_sat (f := caInfeasCell op nec tol pn.cMax fit) (fun _ m => m = Fl.fin 0) nc (.fin 0) rfl ?_
    · obtain ⟨m, h1, rfl⟩ := this
      unfold caInfeas
      rw [h1]
      simp only [Outcome.bind_ok, Outcome.pure_eq]
      rw [hop.div]
      simpa [Fl.gt, Fl.lt] using hnc
    · rintro j m hj rfl
      unfold caInfeasCell
      rw [Outcome.get_of_lt (by omega), Outcome.bind_ok]
      split
      · rename_i hg
        obtain ⟨c, t, h1, h2, h3⟩ := h j hj
        unfold caViol
        rw [Outcome.get_eq_ok_iff.mpr h1, Outcome.get_eq_ok_iff.mpr h2]
        simp only [Outcome.bind_ok, Outcome.pure_eq, Outcome.sat_ok]
        have : Fl.stdMax (.fin 0) (op.sub (if j < nec then Fl.abs c else c) t) = .fin 0 := by
          unfold Fl.stdMax
          rw [if_neg]
          have := hop.sub _ _ h3
          simpa [Fl.gt] using this
        rw [this, hop.div _ hg, hop.add]
      · exact Outcome.sat_ok.mpr rfl
  unfold caValue
  rw [Outcome.get_eq_ok_iff.mpr h0, Outcome.bind_ok, hi, Outcome.bind_ok, if_neg (by simp [Fl.gt, Fl.lt])]
  rfl

/-- an individual with finite fitness vector meets all constraints -/
def Meets (nec nc : Nat) (T r : List K) : Prop :=
  ∀ j, j < nc → (if j < nec then |ent r (j + 1)| else ent r (j + 1)) ≤ ent T j

theorem meets_iff {nec nc : Nat} {T r : List K} : Meets nec nc T r ↔ ∀ j, j < nc → excess nec T r j = 0 := by
  refine forall₂_congr fun j _ => ?_
  unfold excess
  rw [max_eq_left_iff, sub_nonpos]

open Classical in
/-- C85 (counting). If all fitness values are finite, the number of feasible individuals found by `update` is the number of
individuals that meet all constraints, the normalization factors are the greatest violations, and the infeasibility of an
individual is positive iff it violates a constraint. -/
theorem C85_count (nec nc : Nat) (T : List K) (hT : T.length = nc) (F : List (List K)) (hF : ∀ r ∈ F, r.length = nc + 1)
    (hnc : 0 < nc) (hn : F ≠ []) :
    ∃ M pn, caUpdate (Fl.exact K) nec nc (fins T) (F.map fins) = .ok pn ∧ pn.cMax = (List.range nc).map (fun j => Fl.fin (M j)) ∧
      Greatest nec nc T F M ∧ pn.nFeas = (F.filter (fun r => decide (Meets nec nc T r))).length ∧
      ∀ r ∈ F, ∃ i, caInfeas (Fl.exact K) nec nc (fins T) pn.cMax (fins r) = .ok (.fin i) ∧ 0 ≤ i ∧ (0 < i ↔ ¬ Meets nec nc T r) := by
  obtain ⟨M, pn, h1, h2, h3⟩ := caUpdate_fin (nec := nec) hT hF hnc (List.length_pos_iff.mpr hn)
  have hM : ∀ j, j < nc → 0 ≤ M j := fun j hj => (h2 j hj).1
  have key : ∀ r ∈ F, (0 < iota nec nc T M r ↔ ¬ Meets nec nc T r) := by
    intro r hr
    rw [iota_member h2 hr, meets_iff]
    push Not
    refine exists_congr fun j => and_congr_right fun hj => ?_
    exact ⟨fun h => h.ne', fun h => lt_of_le_of_ne (excess_nonneg _ _ _ _) (Ne.symm h)⟩
  refine ⟨M, pn, h1, h3.cMax, h2, ?_, ?_⟩
  · rw [h3.nFeas]
    have e : ∀ i ∈ List.range F.length, decide (io nec nc T M F i = 0) = (fun r => decide (Meets nec nc T r)) (F.getD i []) := by
      intro i hi
      have hi : i < F.length := by simpa using hi
      have hm : F.getD i [] ∈ F := by
        rw [List.getD_eq_getElem?_getD, List.getElem?_eq_getElem hi]; exact List.getElem_mem hi
      have := key _ hm
      show decide (io nec nc T M F i = 0) = decide (Meets nec nc T (F.getD i []))
      rw [decide_eq_decide, io]
      constructor
      · intro h; rw [h] at this; by_contra hc; exact lt_irrefl _ (this.mpr hc)
      · intro h
        by_contra hc
        exact this.mp (lt_of_le_of_ne (iota_nonneg hM) (Ne.symm hc)) h
    rw [List.filter_congr e]
    have : F = (List.range F.length).map (fun i => F.getD i []) := by
      refine List.ext_getElem? fun i => ?_
      by_cases hi : i < F.length
      · simp [hi, List.getElem?_range hi]
      · simp [hi]
    conv_rhs => rw [this]
    rw [List.filter_map, List.length_map]
    rfl
  · intro r hr
    refine ⟨iota nec nc T M r, ?_, iota_nonneg hM, key r hr⟩
    rw [h3.cMax]
    exact caInfeas_fin hT (hF r hr) hnc hM

/-- C85 (NaN). A constraint that evaluates to NaN is not met for `compare_fc` and `feasibility_f`, but the penalized problem
takes the individual for feasible: three of the four are counted and the NaN individual is even the best one. -/
theorem C85_nan : (∃ pn, caUpdate (Fl.exact ℚ) 0 1 [.fin 0]
      [[.fin 1, .nan], [.fin 2, .fin 0], [.fin 3, .fin 0], [.fin 4, .fin 1]] = .ok pn ∧ pn.nFeas = 3 ∧ pn.fDown = [.fin 1, .nan]) ∧
    Con.feasibilityF (fun a => a) 1 0 1 [.fin (0 : ℚ)] [.fin 1, .nan] = .ok false := by
  refine ⟨⟨⟨false, .fin 0, [.fin 1], [.fin 1, .nan], [.fin 4, .fin 1], [.fin 4, .fin 1], .fin 0, .fin 1, .fin 1, 3⟩, by decide +kernel, rfl, rfl⟩, by decide +kernel⟩

/-- C86. The individuals that define the penalties, when all fitness values are finite. If everybody meets the constraints
there is no penalty. Otherwise: the best individual `d` is the feasible one with the lowest objective, or if there is none the
one with the lowest infeasibility (then lowest objective); the worst `u` is, if some infeasible individual has an objective
below the one of `d`, among those the one with the greatest infeasibility (then lowest objective), and in the other cases the
one with the greatest infeasibility (then highest objective); `r` has the highest objective. The first penalty is applied
unless there is a feasible individual and none of the infeasible ones has a lower objective. -/
theorem C86_reference (nec nc : Nat) (T : List K) (hT : T.length = nc) (F : List (List K)) (hF : ∀ r ∈ F, r.length = nc + 1)
    (hnc : 0 < nc) (hn : F ≠ []) :
    ∃ M pn, caUpdate (Fl.exact K) nec nc (fins T) (F.map fins) = .ok pn ∧ Greatest nec nc T F M ∧
      (((∀ r ∈ F, Meets nec nc T r) ∧ pn.apply1 = false ∧ pn.gamma = .fin 0 ∧ pn.iDown = .fin 0 ∧ pn.iUp = .fin 0) ∨
      ∃ d u r : Nat, d < F.length ∧ u < F.length ∧ r < F.length ∧
        Chosen (fun i => iota nec nc T M (F.getD i [])) (obj F) F.length d u pn.apply1 ∧ (∀ i, i < F.length → obj F i ≤ obj F r) ∧
        pn.fDown = fins (F.getD d []) ∧ pn.fUp = fins (F.getD u []) ∧ pn.fRound = fins (F.getD r []) ∧
        pn.iDown = .fin (iota nec nc T M (F.getD d [])) ∧ pn.iUp = .fin (iota nec nc T M (F.getD u [])) ∧
        (obj F d ≠ 0 → obj F u ≠ 0 → pn.gamma = .fin (if obj F u = obj F r then 0 else if obj F u ≤ obj F d then
          (obj F r - obj F d) / obj F d else (obj F r - obj F u) / obj F u))) := by
  obtain ⟨M, pn, h1, h2, h3⟩ := caUpdate_fin (nec := nec) hT hF hnc (List.length_pos_iff.mpr hn)
  refine ⟨M, pn, h1, h2, ?_⟩
  rcases h3.rest with ⟨a, b, c, d, e⟩ | ⟨d, u, r, hd, hu, hr, a1, a2, a3, a4, a5, a6, a7, _, a8⟩
  · refine Or.inl ⟨fun r hr => ?_, b, c, d, e⟩
    obtain ⟨i, hi, rfl⟩ := List.getElem_of_mem hr
    have := a i hi
    rw [io, List.getD_eq_getElem?_getD, List.getElem?_eq_getElem hi] at this
    rw [meets_iff]
    intro j hj
    by_contra hc
    have := (iota_member h2 hr).mpr ⟨j, hj, lt_of_le_of_ne (excess_nonneg _ _ _ _) (Ne.symm hc)⟩
    simp_all
  · refine Or.inr ⟨d, u, r, hd, hu, hr, a1, a2, a3, a4, a5, a6, a7, fun h h' => ?_⟩
    rw [a8, caGamma_fin]
    intro _
    split
    · exact h
    · exact h'

/-! ### The penalized objective, with the exponential function of the reals -/

/-- `std::exp` over the reals -/
noncomputable def expFl : Fl ℝ → Fl ℝ
  | .nan => .nan
  | .ninf => .fin 0
  | .pinf => .pinf
  | .fin a => .fin (Real.exp a)

/-- the growth of the second penalty -/
noncomputable def growth (t : ℝ) : ℝ := (Real.exp (2 * t) - 1) / (Real.exp 2 - 1)

theorem exp_two : 0 < Real.exp 2 - 1 := by
  have := Real.add_one_lt_exp (show (2 : ℝ) ≠ 0 by norm_num)
  linarith

theorem growth_one : growth 1 = 1 := by
  unfold growth
  rw [mul_one, div_self exp_two.ne']

theorem growth_mono {s t : ℝ} (h : s ≤ t) : growth s ≤ growth t := by
  unfold growth
  refine div_le_div_of_nonneg_right ?_ exp_two.le
  have := Real.exp_le_exp.mpr (show 2 * s ≤ 2 * t by linarith)
  linarith

theorem growth_nonneg {t : ℝ} (h : 0 ≤ t) : 0 ≤ growth t := by
  have := growth_mono h
  rwa [show growth 0 = 0 by simp [growth]] at this

/-- the penalized value of a point with objective `f0` and infeasibility `i` -/
noncomputable def penalized (apply1 : Bool) (γ d u a b f0 i : ℝ) : ℝ :=
  let t := if b = a then i else (i - a) / (b - a)
  let f1 := if apply1 then f0 + t * (d - u) else f0
  if 0 < i then f1 + γ * |f1| * growth t else f0

theorem caValue_fin {nec nc : Nat} {T r : List ℝ} (hT : T.length = nc) (hr : r.length = nc + 1) (hnc : 0 < nc) {M : Nat → ℝ}
    (hM : ∀ j, j < nc → 0 ≤ M j) {pn : Penal ℝ} (hc : pn.cMax = tab nc M) {γ a b : ℝ} (hγ : pn.gamma = .fin γ)
    (ha : pn.iDown = .fin a) (hb : pn.iUp = .fin b) {d u : ℝ} (hd : pn.apply1 = true → Outcome.get pn.fDown 0 = .ok (.fin d))
    (hu : pn.apply1 = true → Outcome.get pn.fUp 0 = .ok (.fin u)) :
    caValue (Fl.exact ℝ) expFl nec nc (fins T) pn (fins r) =
      .ok (.fin (penalized pn.apply1 γ d u a b (ent r 0) (iota nec nc T M r))) := by
  unfold caValue
  rw [get_fins (by omega), hc, caInfeas_fin hT hr hnc hM]
  simp only [Outcome.bind_ok, gt_fin, decide_eq_true_eq]
  unfold penalized
  by_cases h : 0 < iota nec nc T M r
  · rw [if_pos h]
    have ht : caTilde (Fl.exact ℝ) pn (.fin (iota nec nc T M r)) =
        .fin (if b = a then iota nec nc T M r else (iota nec nc T M r - a) / (b - a)) := by
      unfold caTilde
      rw [ha, hb, eq_fin]
      by_cases hab : b = a
      · simp [hab]
      · simp only [decide_eq_true_eq, if_neg hab, Fl.exact, sub_fin]
        rw [div_fin (sub_ne_zero.mpr hab)]
    rw [ht]
    have h1 : ∀ t : ℝ, caPen1 (Fl.exact ℝ) pn (.fin t) (.fin (ent r 0)) =
        .ok (.fin (if pn.apply1 then ent r 0 + t * (d - u) else ent r 0)) := by
      intro t
      unfold caPen1
      cases hp : pn.apply1 with
      | false => rfl
      | true =>
        rw [if_pos rfl, hd hp, hu hp]
        simp only [Outcome.bind_ok, Fl.exact, sub_fin]
        rfl
    simp only [h1, Outcome.bind_ok, Outcome.pure_eq, if_pos h]
    congr 1
    unfold caPen2
    simp only [Fl.exact, hγ, abs_fin, Fl.mul, expFl, sub_fin]
    rw [div_fin exp_two.ne']
    rfl
  · rw [if_neg h]; simp [h]

/-- the hypotheses about the population: finite values `F`, tolerances `T` -/
structure Finite (nc : Nat) (T : List ℝ) (F : List (List ℝ)) : Prop where
  tol : T.length = nc
  rows : ∀ r ∈ F, r.length = nc + 1
  nc : 0 < nc
  size : F ≠ []

theorem getD_mem {F : List (List ℝ)} {i : Nat} (h : i < F.length) : F.getD i [] ∈ F := by
  rw [List.getD_eq_getElem?_getD, List.getElem?_eq_getElem h]; exact List.getElem_mem h

theorem get0_row {nc : Nat} {F : List (List ℝ)} (hF : ∀ r ∈ F, r.length = nc + 1) {i : Nat} (h : i < F.length) :
    Outcome.get (fins (F.getD i [])) 0 = .ok (.fin (obj F i)) := get_fins (by rw [hF _ (getD_mem h)]; omega)

/-- The facts about the penalties used below, for a population with a feasible individual and positive objectives. -/
theorem penal_facts {nec nc : Nat} {T : List ℝ} {F : List (List ℝ)} (hfin : Finite nc T F) (hpos : ∀ i, i < F.length → 0 < obj F i)
    (hex : ∃ r ∈ F, Meets nec nc T r) :
    ∃ pn M, caUpdate (Fl.exact ℝ) nec nc (fins T) (F.map fins) = .ok pn ∧ Greatest nec nc T F M ∧
      ∃ γ δ b : ℝ, 0 ≤ γ ∧ 0 ≤ δ ∧ 0 ≤ b ∧
      (∀ r : List ℝ, r.length = nc + 1 → caValue (Fl.exact ℝ) expFl nec nc (fins T) pn (fins r) =
        .ok (.fin (penalized pn.apply1 γ δ 0 0 b (ent r 0) (iota nec nc T M r)))) ∧
      ((∃ r ∈ F, ¬ Meets nec nc T r) → ∃ u r : Nat, u < F.length ∧ r < F.length ∧ ¬ Meets nec nc T (F.getD u []) ∧
        (∀ i, i < F.length → obj F i ≤ obj F r) ∧
        (∀ i, i < F.length → ¬ Meets nec nc T (F.getD i []) → (∃ d ∈ F, Meets nec nc T d ∧ ent d 0 ≤ obj F i) ∨
          iota nec nc T M (F.getD i []) ≤ iota nec nc T M (F.getD u [])) ∧
        penalized pn.apply1 γ δ 0 0 b (obj F u) (iota nec nc T M (F.getD u [])) = obj F r) := by
  obtain ⟨M, pn, h1, h2, h3⟩ := caUpdate_fin (nec := nec) hfin.tol hfin.rows hfin.nc (List.length_pos_iff.mpr hfin.size)
  have hM : ∀ j, j < nc → 0 ≤ M j := fun j hj => (h2 j hj).1
  have key : ∀ r ∈ F, (iota nec nc T M r = 0 ↔ Meets nec nc T r) := by
    intro r hr
    have := iota_member h2 hr
    rw [meets_iff]
    constructor
    · intro h j hj
      by_contra hc
      exact absurd (this.mpr ⟨j, hj, lt_of_le_of_ne (excess_nonneg _ _ _ _) (Ne.symm hc)⟩) (by rw [h]; exact lt_irrefl _)
    · intro h
      by_contra hc
      obtain ⟨j, hj, h'⟩ := this.mp (lt_of_le_of_ne (iota_nonneg hM) (Ne.symm hc))
      exact h'.ne' (h j hj)
  refine ⟨pn, M, h1, h2, ?_⟩
  rcases h3.rest with ⟨a, b, c, d, e⟩ | ⟨d, u, r, hd, hu, hr, a1, a2, a3, a4, _, a6, a7, _, a8⟩
  · refine ⟨0, 0, 0, le_refl _, le_refl _, le_refl _, ?_, ?_⟩
    · intro r hr
      exact caValue_fin hfin.tol hr hfin.nc hM h3.cMax c d e (by rw [b]; simp) (by rw [b]; simp)
    · rintro ⟨r, hr, h⟩
      obtain ⟨i, hi, rfl⟩ := List.getElem_of_mem hr
      refine absurd ((key _ hr).mp ?_) h
      have := a i hi
      rwa [io, List.getD_eq_getElem?_getD, List.getElem?_eq_getElem hi] at this
  · obtain ⟨rf, hrf, hmeet⟩ := hex
    obtain ⟨i0, hi0, rfl⟩ := List.getElem_of_mem hrf
    have hi00 : io nec nc T M F i0 = 0 := by
      rw [io, List.getD_eq_getElem?_getD, List.getElem?_eq_getElem hi0]; exact (key _ hrf).mpr hmeet
    have hd0 := hpos d hd
    have hu0 := hpos u hu
    rcases a1 with ⟨b1, b2, b3, b4⟩ | ⟨b1, _⟩
    · have hγ : pn.gamma = .fin (if obj F u = obj F r then 0 else if obj F u ≤ obj F d then
          (obj F r - obj F d) / obj F d else (obj F r - obj F u) / obj F u) := by
        rw [a8, caGamma_fin]
        intro _
        split
        · exact hd0.ne'
        · exact hu0.ne'
      set γ := (if obj F u = obj F r then 0 else if obj F u ≤ obj F d then
          (obj F r - obj F d) / obj F d else (obj F r - obj F u) / obj F u) with hγd
      have hγ0 : 0 ≤ γ := by
        rw [hγd]
        split
        · exact le_refl _
        · split
          · exact div_nonneg (sub_nonneg.mpr (a2 d hd)) hd0.le
          · exact div_nonneg (sub_nonneg.mpr (a2 u hu)) hu0.le
      rw [b1] at a6
      refine ⟨γ, if pn.apply1 then obj F d - obj F u else 0, io nec nc T M F u, hγ0, ?_, b3.le, ?_, ?_⟩
      · rcases b4 with ⟨h, h', _⟩ | ⟨h, _⟩
        · rw [h, if_pos rfl]; linarith
        · rw [h]; simp
      · intro x hx
        rw [caValue_fin hfin.tol hx hfin.nc hM h3.cMax hγ a6 a7 (d := obj F d) (u := obj F u)
          (by rw [a3]; exact fun _ => get0_row hfin.rows hd) (by rw [a4]; exact fun _ => get0_row hfin.rows hu)]
        congr 2
        unfold penalized
        cases pn.apply1 <;> simp
      · intro _
        refine ⟨u, r, hu, hr, ?_, a2, ?_, ?_⟩
        · intro h; exact b3.ne' ((key _ (getD_mem hu)).mpr h)
        · intro i hi hnm
          have hip : 0 < io nec nc T M F i := lt_of_le_of_ne (iota_nonneg hM) (fun h => hnm ((key _ (getD_mem hi)).mp h.symm))
          rcases b4 with ⟨_, _, h'⟩ | ⟨_, h'⟩
          · by_cases hlt : obj F i < obj F d
            · right
              have := h' i hi hip hlt
              unfold Farther at this
              push Not at this
              exact this.1
            · left
              exact ⟨F.getD d [], getD_mem hd, (key _ (getD_mem hd)).mp b1, not_lt.mp hlt⟩
          · right
            have := (h' i hi hip).2
            unfold Worse at this
            push Not at this
            exact this.1
        · unfold penalized
          have hu1 : iota nec nc T M (F.getD u []) = io nec nc T M F u := rfl
          simp only [hu1, if_pos b3, if_neg b3.ne', sub_zero, div_self b3.ne', one_mul, growth_one, mul_one]
          have hrd := a2 d hd
          rcases b4 with ⟨h, h', _⟩ | ⟨h, h'⟩
          · rw [h]
            simp only [if_true]
            rw [add_sub_cancel, abs_of_pos hd0, hγd, if_neg (by linarith), if_pos h'.le, div_mul_cancel₀ _ hd0.ne']
            ring
          · rw [h]
            simp only [Bool.false_eq_true, if_false]
            rw [abs_of_pos hu0, hγd]
            have hdu := (h' u hu b3).1
            split
            · simp [*]
            · split
              · have : obj F u = obj F d := le_antisymm (by assumption) hdu
                rw [this, div_mul_cancel₀ _ hd0.ne']; ring
              · rw [div_mul_cancel₀ _ hu0.ne']; ring
    · exact absurd (b1 i0 hi0) (by rw [hi00]; exact lt_irrefl _)

/-- C87 (the worst individual). If somebody is feasible and all objectives of the population are positive, then there is an
infeasible individual, the most infeasible one among those that the first penalty is meant for, whose penalized objective is
the highest objective of the population.
`_partial`: false if objectives may be negative (`C87_rewarded`) or nobody is feasible (`C87_all_infeasible`); exact
arithmetic. -/
theorem C87_worst_partial (nec nc : Nat) (T : List ℝ) (F : List (List ℝ)) (hfin : Finite nc T F) (hpos : ∀ i, i < F.length → 0 < obj F i)
    (hex : ∃ r ∈ F, Meets nec nc T r) (hne : ∃ r ∈ F, ¬ Meets nec nc T r) :
    ∃ pn M, caUpdate (Fl.exact ℝ) nec nc (fins T) (F.map fins) = .ok pn ∧ Greatest nec nc T F M ∧
      ∃ u r : Nat, u < F.length ∧ r < F.length ∧ ¬ Meets nec nc T (F.getD u []) ∧ (∀ i, i < F.length → obj F i ≤ obj F r) ∧
        (∀ i, i < F.length → ¬ Meets nec nc T (F.getD i []) → (∃ d ∈ F, Meets nec nc T d ∧ ent d 0 ≤ obj F i) ∨
          iota nec nc T M (F.getD i []) ≤ iota nec nc T M (F.getD u [])) ∧
        caValue (Fl.exact ℝ) expFl nec nc (fins T) pn (fins (F.getD u [])) = .ok (.fin (obj F r)) := by
  obtain ⟨pn, M, h1, h2, γ, δ, b, _, _, _, h3, h4⟩ := penal_facts hfin hpos hex
  obtain ⟨u, r, hu, hr, h5, h6, h7, h8⟩ := h4 hne
  refine ⟨pn, M, h1, h2, u, r, hu, hr, h5, h6, h7, ?_⟩
  rw [h3 _ (hfin.rows _ (getD_mem hu))]
  exact congrArg (fun a => Outcome.ok (Fl.fin a)) h8

/-- C87 (no reward). If somebody is feasible and all objectives of the population are positive, then penalized objectives are
not lower than the objectives, for all points; and of two points with nonnegative objectives the one with the higher (or
same) objective and infeasibility also has the higher (or same) penalized objective.
`_partial`: see `C87_worst_partial`. -/
theorem C87_no_reward_partial (nec nc : Nat) (T : List ℝ) (F : List (List ℝ)) (hfin : Finite nc T F)
    (hpos : ∀ i, i < F.length → 0 < obj F i) (hex : ∃ r ∈ F, Meets nec nc T r) :
    ∃ pn M, caUpdate (Fl.exact ℝ) nec nc (fins T) (F.map fins) = .ok pn ∧ Greatest nec nc T F M ∧
      ∃ V : List ℝ → ℝ, (∀ x : List ℝ, x.length = nc + 1 →
        caValue (Fl.exact ℝ) expFl nec nc (fins T) pn (fins x) = .ok (.fin (V x)) ∧ ent x 0 ≤ V x) ∧
      ∀ x y : List ℝ, x.length = nc + 1 → y.length = nc + 1 → 0 ≤ ent x 0 → ent x 0 ≤ ent y 0 →
        iota nec nc T M x ≤ iota nec nc T M y → V x ≤ V y := by
  obtain ⟨pn, M, h1, h2, γ, δ, b, hγ, hδ, hb, h3, _⟩ := penal_facts hfin hpos hex
  have hM : ∀ j, j < nc → 0 ≤ M j := fun j hj => (h2 j hj).1
  refine ⟨pn, M, h1, h2, fun x => penalized pn.apply1 γ δ 0 0 b (ent x 0) (iota nec nc T M x), fun x hx => ⟨h3 x hx, ?_⟩, ?_⟩
  · unfold penalized
    dsimp only
    split
    · rename_i hi
      set t := if b = 0 then iota nec nc T M x else (iota nec nc T M x - 0) / (b - 0) with ht
      have ht0 : 0 ≤ t := by
        rw [ht]; split
        · exact hi.le
        · simpa using div_nonneg hi.le hb
      have e1 : ent x 0 ≤ if pn.apply1 then ent x 0 + t * (δ - 0) else ent x 0 := by
        split
        · have := mul_nonneg ht0 hδ; linarith
        · exact le_refl _
      have e2 := mul_nonneg (mul_nonneg hγ (abs_nonneg (if pn.apply1 then ent x 0 + t * (δ - 0) else ent x 0))) (growth_nonneg ht0)
      linarith
    · exact le_refl _
  · intro x y hx hy h0 hxy hi
    unfold penalized
    dsimp only
    set t : ℝ → ℝ := fun i => if b = 0 then i else (i - 0) / (b - 0) with ht
    have ht0 : ∀ i, 0 ≤ i → 0 ≤ t i := by
      intro i hi
      simp only [ht]; split
      · exact hi
      · simpa using div_nonneg hi hb
    have htm : ∀ i j, i ≤ j → t i ≤ t j := by
      intro i j hij
      simp only [ht]; split
      · exact hij
      · simpa using div_le_div_of_nonneg_right hij hb
    change (if 0 < iota nec nc T M x then
      (if pn.apply1 then ent x 0 + t (iota nec nc T M x) * (δ - 0) else ent x 0) +
        γ * |if pn.apply1 then ent x 0 + t (iota nec nc T M x) * (δ - 0) else ent x 0| * growth (t (iota nec nc T M x)) else ent x 0) ≤
      (if 0 < iota nec nc T M y then
      (if pn.apply1 then ent y 0 + t (iota nec nc T M y) * (δ - 0) else ent y 0) +
        γ * |if pn.apply1 then ent y 0 + t (iota nec nc T M y) * (δ - 0) else ent y 0| * growth (t (iota nec nc T M y)) else ent y 0)
    have hix : 0 ≤ iota nec nc T M x := iota_nonneg hM
    have hiy : 0 ≤ iota nec nc T M y := iota_nonneg hM
    set f1 : ℝ → ℝ → ℝ := fun f i => if pn.apply1 then f + t i * (δ - 0) else f with hf1
    have f1n : ∀ f i, 0 ≤ f → 0 ≤ i → f ≤ f1 f i := by
      intro f i hf hi
      simp only [hf1]; split
      · have := mul_nonneg (ht0 i hi) hδ; linarith
      · exact le_refl _
    have f1m : ∀ f g i j, f ≤ g → i ≤ j → f1 f i ≤ f1 g j := by
      intro f g i j hfg hij
      simp only [hf1]; split
      · have := mul_le_mul_of_nonneg_right (htm i j hij) hδ; linarith
      · exact hfg
    change (if 0 < iota nec nc T M x then f1 (ent x 0) (iota nec nc T M x) + γ * |f1 (ent x 0) (iota nec nc T M x)| *
        growth (t (iota nec nc T M x)) else ent x 0) ≤
      (if 0 < iota nec nc T M y then f1 (ent y 0) (iota nec nc T M y) + γ * |f1 (ent y 0) (iota nec nc T M y)| *
        growth (t (iota nec nc T M y)) else ent y 0)
    have hy0 : 0 ≤ ent y 0 := h0.trans hxy
    have ax := f1n (ent x 0) _ h0 hix
    have ay := f1n (ent y 0) _ hy0 hiy
    have am := f1m _ _ _ _ hxy hi
    rw [abs_of_nonneg (h0.trans ax), abs_of_nonneg (hy0.trans ay)]
    have gy := growth_nonneg (ht0 _ hiy)
    by_cases hxi : 0 < iota nec nc T M x
    · rw [if_pos hxi, if_pos (lt_of_lt_of_le hxi hi)]
      have := mul_le_mul (mul_le_mul_of_nonneg_left am hγ) (growth_mono (htm _ _ hi)) (growth_nonneg (ht0 _ hix))
        (mul_nonneg hγ (hy0.trans ay))
      linarith
    · rw [if_neg hxi]
      split
      · have := mul_nonneg (mul_nonneg hγ (hy0.trans ay)) gy
        linarith
      · exact hxy

/-! ### Where the claims fail -/

theorem caViol_ineq (t a c : ℝ) : caViol (Fl.exact ℝ) 0 [.fin t] [.fin a, .fin c] 0 = .ok (.fin (max 0 (c - t))) := by
  simp [caViol, Outcome.get, Fl.exact, sub_fin, stdMax_fin]

theorem caInfeas_ineq (m a c : ℝ) (hm : 0 < m) :
    caInfeas (Fl.exact ℝ) 0 1 [.fin 0] [.fin m] [.fin a, .fin c] = .ok (.fin (max 0 c / m)) := by
  simp only [caInfeas, caInfeasCell, caViol_ineq, List.range_succ, List.range_zero, List.nil_append, List.foldlM_cons, List.foldlM_nil,
    Outcome.get, List.getElem?_cons_zero, Outcome.bind_ok, gt_fin, hm, decide_true, if_true, Outcome.pure_eq]
  simp [Fl.exact, Fl.add, Fl.div, hm.ne']

/-- the penalties for three feasible individuals with objectives -2, 5, 4 and an infeasible one with objective -3 -/
noncomputable def negPen : Penal ℝ :=
  ⟨true, .fin (-7 / 2), [.fin 1], [.fin (-2), .fin 0], [.fin (-3), .fin 1], [.fin 5, .fin 0], .fin 0, .fin 1, .fin 0, 3⟩

theorem negPen_update : caUpdate (Fl.exact ℝ) 0 1 [.fin 0]
    [[.fin (-2), .fin 0], [.fin 5, .fin 0], [.fin (-3), .fin 1], [.fin 4, .fin 0]] = .ok negPen := by
  have h1 : caCMax (Fl.exact ℝ) 0 1 [.fin 0] [[.fin (-2), .fin 0], [.fin 5, .fin 0], [.fin (-3), .fin 1], [.fin 4, .fin 0]] = .ok [.fin 1] := by
    simp [caCMax, caCMaxRow, caCMaxCell, caViol_ineq, List.range_succ, stdMax_fin, Outcome.get, Outcome.set]
  unfold caUpdate negPen
  rw [h1]
  simp [caInfeas_ineq, List.range_succ, gt_fin]
  norm_num [caPenal, caHats, caHatUp, caFirst, caPick, caPickStep, caLower, caHigher, caBelow, caObj, Outcome.get, List.range',
    lt_fin, gt_fin, eq_fin, le_fin, Fl.ge, caGamma, Fl.exact, sub_fin, Fl.div]

theorem tab_one (m : ℝ) : [Fl.fin m] = tab 1 (fun _ => m) := rfl

/-- C87 is false for negative objectives: of feasible individuals with objectives -2, 5, 4 and an infeasible one with objective
-3, the infeasible one gets the penalized objective -9 (not 5). The "penalty" is a reward, and the infeasible individual is
by far the best one of the penalized problem. -/
theorem C87_rewarded : caUpdate (Fl.exact ℝ) 0 1 [.fin 0]
      [[.fin (-2), .fin 0], [.fin 5, .fin 0], [.fin (-3), .fin 1], [.fin 4, .fin 0]] = .ok negPen ∧
    caValue (Fl.exact ℝ) expFl 0 1 [.fin 0] negPen [.fin (-3), .fin 1] = .ok (.fin (-9)) ∧
    caValue (Fl.exact ℝ) expFl 0 1 [.fin 0] negPen [.fin (-2), .fin 0] = .ok (.fin (-2)) := by
  refine ⟨negPen_update, ?_, ?_⟩
  · have := caValue_fin (nec := 0) (nc := 1) (T := [0]) (r := [-3, 1]) (M := fun _ => 1) (pn := negPen) rfl rfl Nat.one_pos
      (fun _ _ => zero_le_one) rfl (γ := -7 / 2) (a := 0) (b := 1) rfl rfl rfl (d := -2) (u := -3) (fun _ => rfl) (fun _ => rfl)
    refine this.trans ?_
    have hi : iota 0 1 [0] (fun _ => (1 : ℝ)) [-3, 1] = 1 := by simp [iota, excess, ent]
    rw [hi]
    norm_num [penalized, negPen, growth_one, ent]
  · have := caValue_fin (nec := 0) (nc := 1) (T := [0]) (r := [-2, 0]) (M := fun _ => 1) (pn := negPen) rfl rfl Nat.one_pos
      (fun _ _ => zero_le_one) rfl (γ := -7 / 2) (a := 0) (b := 1) rfl rfl rfl (d := -2) (u := -3) (fun _ => rfl) (fun _ => rfl)
    refine this.trans ?_
    have hi : iota 0 1 [0] (fun _ => (1 : ℝ)) [-2, 0] = 0 := by simp [iota, excess, ent]
    rw [hi]
    norm_num [penalized, ent]

/-- the penalties for four infeasible individuals with objectives 1, 10, 8, 9 and violations 1, 2, 1, 1 -/
noncomputable def allInfPen : Penal ℝ :=
  ⟨true, .fin 0, [.fin 2], [.fin 1, .fin 1], [.fin 10, .fin 2], [.fin 10, .fin 2], .fin (1 / 2), .fin 1, .fin 1, 0⟩

theorem allInfPen_update : caUpdate (Fl.exact ℝ) 0 1 [.fin 0]
    [[.fin 1, .fin 1], [.fin 10, .fin 2], [.fin 8, .fin 1], [.fin 9, .fin 1]] = .ok allInfPen := by
  have h1 : caCMax (Fl.exact ℝ) 0 1 [.fin 0] [[.fin 1, .fin 1], [.fin 10, .fin 2], [.fin 8, .fin 1], [.fin 9, .fin 1]] = .ok [.fin 2] := by
    norm_num [caCMax, caCMaxRow, caCMaxCell, caViol_ineq, List.range_succ, stdMax_fin, Outcome.get, Outcome.set]
  unfold caUpdate allInfPen
  rw [h1]
  simp [caInfeas_ineq, List.range_succ, gt_fin]
  norm_num [caPenal, caHats, caHatUp, caFirst, caPick, caPickStep, caLower, caHigher, caNearer, caWorse, caObj, Outcome.get, List.range',
    lt_fin, gt_fin, eq_fin, le_fin, Fl.ge, caGamma, Fl.exact, sub_fin, Fl.div]

/-- C87 is false if nobody is feasible, also for positive objectives: the individual with objective 10 and the greatest
violation gets the penalized objective 1, the same as the one with objective 1 and a smaller violation; the one with
objective 8 and the smaller violation keeps 8. -/
theorem C87_all_infeasible : caUpdate (Fl.exact ℝ) 0 1 [.fin 0]
      [[.fin 1, .fin 1], [.fin 10, .fin 2], [.fin 8, .fin 1], [.fin 9, .fin 1]] = .ok allInfPen ∧
    caValue (Fl.exact ℝ) expFl 0 1 [.fin 0] allInfPen [.fin 10, .fin 2] = .ok (.fin 1) ∧
    caValue (Fl.exact ℝ) expFl 0 1 [.fin 0] allInfPen [.fin 1, .fin 1] = .ok (.fin 1) ∧
    caValue (Fl.exact ℝ) expFl 0 1 [.fin 0] allInfPen [.fin 8, .fin 1] = .ok (.fin 8) := by
  have key : ∀ a c : ℝ, 0 ≤ c → caValue (Fl.exact ℝ) expFl 0 1 [.fin 0] allInfPen [.fin a, .fin c] =
      .ok (.fin (penalized true 0 1 10 (1 / 2) 1 a (c / 2))) := by
    intro a c hc
    have := caValue_fin (nec := 0) (nc := 1) (T := [0]) (r := [a, c]) (M := fun _ => 2) (pn := allInfPen) rfl rfl Nat.one_pos
      (fun _ _ => zero_le_two) rfl (γ := 0) (a := 1 / 2) (b := 1) rfl rfl rfl (d := 1) (u := 10) (fun _ => rfl) (fun _ => rfl)
    refine this.trans ?_
    have hi : iota 0 1 [0] (fun _ => (2 : ℝ)) [a, c] = c / 2 := by simp [iota, excess, ent, hc]
    rw [hi]; rfl
  refine ⟨allInfPen_update, ?_, ?_, ?_⟩
  · rw [key _ _ (by norm_num)]; norm_num [penalized]
  · rw [key _ _ (by norm_num)]; norm_num [penalized]
  · rw [key _ _ (by norm_num)]; norm_num [penalized]

/-! ### The hypotheses are met -/

example : ∃ M pn, caUpdate (Fl.exact ℚ) 1 2 (fins [1, 0]) (List.map fins [[3, -2, 0], [4, 1, -1], [5, 0, 7]]) = .ok pn ∧
      pn.cMax = (List.range 2).map (fun j => Fl.fin (M j)) ∧ Greatest 1 2 [1, 0] [[3, -2, 0], [4, 1, -1], [5, 0, 7]] M ∧
      pn.nFeas = 1 := by
  refine ⟨fun j => if j = 0 then 1 else 7, ⟨true, .fin (1 / 4), [.fin 1, .fin 7], [.fin 4, .fin 1, .fin (-1)], [.fin 3, .fin (-2), .fin 0],
    [.fin 5, .fin 0, .fin 7], .fin 0, .fin (1 / 2), .fin (1 / 2), 1⟩, by decide +kernel, by decide +kernel, ?_, rfl⟩
  intro j hj
  interval_cases j <;> simp [excess, ent] <;> norm_num

example : caValue (Fl.exact ℚ) (fun a => a) 1 2 [.fin 1, .fin 0]
    ⟨true, .fin (1 / 4), [.fin 1, .fin 7], [.fin 4, .fin 1, .fin (-1)], [.fin 3, .fin (-2), .fin 0], [.fin 5, .fin 0, .fin 7], .fin 0,
      .fin (1 / 2), .fin (1 / 2), 1⟩ [.fin 9, .fin (-1), .fin (-3)] = .ok (.fin 9) :=
  C85_feasible (Fl.exact ℚ) sound_exact (fun a => a) 1 2 [.fin 1, .fin 0] (List.map fins [[3, -2, 0], [4, 1, -1], [5, 0, 7]]) _
    (by decide +kernel) (by norm_num) (.fin 9) _ rfl (by
      intro j hj
      interval_cases j
      · exact ⟨_, _, rfl, rfl, by decide +kernel⟩
      · exact ⟨_, _, rfl, rfl, by decide +kernel⟩)

/-- populations with a feasible individual, an infeasible one and positive objectives -/
example : Finite 1 [0] [[3, 0], [2, 1], [4, 0], [5, 3]] ∧ (∀ i, i < 4 → 0 < obj [[3, 0], [2, 1], [4, 0], [(5 : ℝ), 3]] i) ∧
    (∃ r ∈ [[3, 0], [2, 1], [4, 0], [(5 : ℝ), 3]], Meets 0 1 [0] r) ∧ ∃ r ∈ [[3, 0], [2, 1], [4, 0], [(5 : ℝ), 3]], ¬ Meets 0 1 [0] r := by
  refine ⟨⟨rfl, by simp, Nat.one_pos, by simp⟩, ?_, ⟨[3, 0], by simp, ?_⟩, ⟨[2, 1], by simp, ?_⟩⟩
  · intro i hi; interval_cases i <;> simp [obj, ent]
  · intro j hj; interval_cases j; simp [ent]
  · intro h; have := h 0 Nat.one_pos; simp [ent] at this; norm_num at this

end Verif.Props
