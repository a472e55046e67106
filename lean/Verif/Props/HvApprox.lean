import Verif.Proof.HvRaceEnd
import Verif.Proof.HvFpras
import Mathlib.Analysis.SumIntegralComparisons
import Mathlib.Analysis.SpecialFunctions.Integrals.Basic

/-!
# The approximate hypervolume algorithms

C129 (the race of `bf_approx`), C130 (exact contributors of few points), C131 (confidence of the estimates of
`bf_approx`), C132 (`bf_fpras`).

Exact arithmetic over the reals. `low` stands for the most negative double.
-/

set_option autoImplicit false

namespace Verif.Props

open Verif Verif.Spec Verif.Hv Run

section
variable {σ : Type} {v : ApEnv ℝ σ} {low : ℝ} {par : ApPar ℝ} {d : Nat} {P : List (List ℝ)} {r : List ℝ} {eps : ℝ}

/-! ## C129: the race -/

/-- **C129.** `least_contributor` neither throws nor has undefined behaviour; when it returns, the index is that of a
point. If in each round each estimate obtained by sampling was within its half width of the contribution, the
contribution of the point returned is at most `1 + eps` times that of any other point. -/
theorem C129_least (hv : ApLaw v low) (hd : 2 ≤ d) (hne : P ≠ []) (hb : Spec.Below d P r) (hlow : AboveLow low P)
    (heps : par.eps = .fin eps) (he0 : 0 ≤ eps) (fuel fuelS : Nat) (s : ApSt ℝ σ) :
    wpn True (apExtreme v par .least (P.map apF) (apF r) fuel fuelS)
      (fun i s' => i < P.length ∧ ((∀ c ∈ s'.rounds, CloseRec d P r c) →
        ∀ j : Nat, j < P.length → exclVol d P r i ≤ (1 + eps) * exclVol d P r j)) (fun _ _ => False) s := by
  exact (apExtreme_ok (N := True) (kind := .least) hv hd hne hb hlow (by simp) (fun _ => trivial) heps he0 (fun h => absurd trivial h) s).mono
    (fun i s' ⟨_, _, h⟩ => ⟨h.1, h.2.2.2.1⟩) (fun _ _ h => h)

/-- **C129.** The same for `greatest_contributor` if no point is dominated by or equal to another one. -/
theorem C129_greatest_partial (hv : ApLaw v low) (hd : 2 ≤ d) (hne : P ≠ []) (hb : Spec.Below d P r) (hlow : AboveLow low P)
    (hac : Antichain d P) (heps : par.eps = .fin eps) (he0 : 0 ≤ eps) (fuel fuelS : Nat) (s : ApSt ℝ σ) :
    wpn True (apExtreme v par .greatest (P.map apF) (apF r) fuel fuelS)
      (fun i s' => i < P.length ∧ ((∀ c ∈ s'.rounds, CloseRec d P r c) →
        ∀ j : Nat, j < P.length → exclVol d P r j ≤ (1 + eps) * exclVol d P r i)) (fun _ _ => False) s := by
  exact (apExtreme_ok (N := True) (kind := .greatest) hv hd hne hb hlow (fun _ => hac) (fun _ => trivial) heps he0 (fun h => absurd trivial h) s).mono
    (fun i s' ⟨_, _, h⟩ => ⟨h.1, h.2.2.2.1⟩) (fun _ _ h => h)

/-! ## C130: few points -/

/-- **C130.** With `use_exact` and at most one point more than `trivial_subcase_size`, `least_contributor` ends after one
round and returns a point no other point contributes less than. -/
theorem C130_least (hv : ApLaw v low) (hd : 2 ≤ d) (hne : P ≠ []) (hb : Spec.Below d P r) (hlow : AboveLow low P)
    (heps : par.eps = .fin eps) (he0 : 0 ≤ eps) (hu : par.useExact = true) (hn : P.length ≤ par.trivial + 1) {fuel : Nat}
    (hf : 1 ≤ fuel) (fuelS : Nat) (s : ApSt ℝ σ) :
    wp (apExtreme v par .least (P.map apF) (apF r) fuel fuelS)
      (fun i _ => i < P.length ∧ ∀ j : Nat, j < P.length → exclVol d P r i ≤ exclVol d P r j) (fun _ _ => False) s :=
  wp_of_wpn ((apExtreme_ok (N := False) (kind := .least) hv hd hne hb hlow (by simp) (fun h => h hu hn) heps he0 (fun _ _ _ => hf) s).mono
    (fun i s' ⟨_, _, h⟩ => ⟨h.1, fun j hj => not_lt.mp (h.2.2.2.2 hu hn j hj)⟩) (fun _ _ h => h))

/-- **C130.** The same for `greatest_contributor` if no point is dominated by or equal to another one. -/
theorem C130_greatest_partial (hv : ApLaw v low) (hd : 2 ≤ d) (hne : P ≠ []) (hb : Spec.Below d P r) (hlow : AboveLow low P)
    (hac : Antichain d P) (heps : par.eps = .fin eps) (he0 : 0 ≤ eps) (hu : par.useExact = true) (hn : P.length ≤ par.trivial + 1)
    {fuel : Nat} (hf : 1 ≤ fuel) (fuelS : Nat) (s : ApSt ℝ σ) :
    wp (apExtreme v par .greatest (P.map apF) (apF r) fuel fuelS)
      (fun i _ => i < P.length ∧ ∀ j : Nat, j < P.length → exclVol d P r j ≤ exclVol d P r i) (fun _ _ => False) s :=
  wp_of_wpn ((apExtreme_ok (N := False) (kind := .greatest) hv hd hne hb hlow (fun _ => hac) (fun h => h hu hn) heps he0 (fun _ _ _ => hf) s).mono
    (fun i s' ⟨_, _, h⟩ => ⟨h.1, fun j hj => not_lt.mp (h.2.2.2.2 hu hn j hj)⟩) (fun _ _ h => h))

/-- All that a point covers alone lies in its box, from which contributions are computed and samples drawn. -/
theorem C130_box (hd : 2 ≤ d) {z p x : List ℝ} (h : BoxOf d P r p z)
    (hx : ∀ i : Nat, i < d → p.getD i 0 ≤ x.getD i 0 ∧ x.getD i 0 ≤ r.getD i 0)
    (hno : ∀ q ∈ P, q ≠ p → ¬ WeakDom d q x) : ∀ i : Nat, i < d → x.getD i 0 ≤ z.getD i 0 :=
  box_covers h hx (fun q hq ⟨k, hk⟩ => by
    refine hno q hq ?_
    rintro rfl
    have : ∃ j : Nat, j < d ∧ j ≠ k := by
      by_cases h0 : k = 0
      · exact ⟨1, by omega, by omega⟩
      · exact ⟨0, by omega, by omega⟩
    obtain ⟨j, hj, hjk⟩ := this
    exact lt_irrefl _ (hk.2.2 j hj hjk))

/-! ## C131: the estimates -/

/-- the box of a point is unique -/
theorem boxOf_volume {p z z' : List ℝ} (h : BoxOf d P r p z) (h' : BoxOf d P r p z') : boxVolume d p z = boxVolume d p z' := by
  have key : ∀ {z z' : List ℝ}, BoxOf d P r p z → BoxOf d P r p z' → ∀ i : Nat, i < d → z.getD i 0 ≤ z'.getD i 0 := by
    intro z z' h h' i hi
    rcases h'.attained i hi with he | ⟨q, hq, hr, he⟩
    · rw [he]; exact h.le_r i hi
    · rw [he]; exact h.le_q q hq i hr
  unfold boxVolume
  refine Finset.prod_congr rfl (fun k hk => ?_)
  have hk' := Finset.mem_range.mp hk
  rw [le_antisymm (key h h' k hk') (key h' h k hk')]

/-- The mathematical functions on the reals. -/
structure ApMath (v : ApEnv ℝ σ) : Prop where
  log : ∀ x : ℝ, 0 < x → v.log (.fin x) = .fin (Real.log x)
  sqrt : ∀ x : ℝ, 0 ≤ x → v.sqrt (.fin x) = .fin (Real.sqrt x)
  half : v.half = .fin (1 / 2)

/-- Parameters as the documentation describes them. -/
structure ApReals (par : ApPar ℝ) (delta mult alpha coeff gamma : ℝ) : Prop where
  delta : par.delta = .fin delta ∧ 0 < delta ∧ delta ≤ 1
  mult : par.mult = .fin mult ∧ 0 < mult
  alpha : par.alpha = .fin alpha ∧ 0 < alpha ∧ alpha ≤ 1
  coeff : par.coeff = .fin coeff ∧ 0 < coeff
  gamma : par.gamma = .fin gamma ∧ 0 < gamma

/-- The bound of Hoeffding's inequality for the probability that the mean of `m` independent draws from `[0, vol]` is off
by more than `y`. -/
noncomputable def hoeffding (m : Nat) (vol y : ℝ) : ℝ := 2 * Real.exp (-2 * m * (y / vol) ^ 2)

theorem ap_div_fin {a b : ℝ} (hb : b ≠ 0) : Fl.div (.fin a) (.fin b) = (.fin (a / b) : Fl ℝ) := by simp [Fl.div, hb]

theorem logFactor_ok (hm : ApMath v) (hv : ApLaw v low) {delta mult alpha coeff gamma : ℝ}
    (hp : ApReals par delta mult alpha coeff gamma) {n : Nat} (hn : 0 < n) :
    apLogFactor v par n = .fin (Real.log (2 * n * (1 + gamma) / (delta * gamma))) := by
  unfold apLogFactor
  rw [hv.op, hv.nat, hv.nat, hp.delta.1, hp.gamma.1]
  have hpos : 0 < delta * gamma := mul_pos hp.delta.2.1 hp.gamma.2
  have hn' : (0 : ℝ) < n := by exact_mod_cast hn
  have hg := hp.gamma.2
  change v.log (Fl.div (.fin ((2 : Nat) * n * (1 + gamma))) (.fin (delta * gamma))) = _
  rw [ap_div_fin hpos.ne', hm.log _ (by positivity)]
  norm_num

theorem rd_iter {R coeff mult : ℝ} (hc : par.coeff = .fin coeff) (hmu : par.mult = .fin mult) (k : Nat) :
    (fun x => Fl.mul x par.mult)^[k] (Fl.mul (.fin R) par.coeff) = .fin (R * coeff * mult ^ k) := by
  induction k with
  | zero => rw [hc]; simp [Fl.mul]
  | succ k ih =>
    rw [Function.iterate_succ_apply', ih, hmu]
    change Fl.fin (R * coeff * mult ^ k * mult) = _
    rw [pow_succ, mul_assoc]

/-- One estimate. -/
theorem est_conf (hv : ApLaw v low) (hm : ApMath v) {delta mult alpha coeff gamma : ℝ} (hp : ApReals par delta mult alpha coeff gamma)
    {i round no : Nat} (hi : i < P.length) (hround : 1 ≤ round) {dl : ℝ} (hdl : 0 < dl) {a da : Fl ℝ} {dr : List (Nat × List (Fl ℝ))}
    (h : EstOf v par d P r (apLogFactor v par P.length) round (.fin dl) i no a da dr) (hno : no ≠ 0) :
    ∃ (z : List ℝ) (m c : Nat), BoxOf d P r (P.getD i []) z ∧ SampOf d P z dr i m c ∧ (0 < boxVolume d (P.getD i []) z →
      ∃ y : ℝ, 0 < m ∧ a = .fin (c / m * boxVolume d (P.getD i []) z) ∧ da = .fin y ∧ 0 < y ∧ y ≤ dl ∧
      hoeffding m (boxVolume d (P.getD i []) z) y = delta * gamma / (P.length * (1 + gamma)) * (round : ℝ) ^ (-(1 + gamma))) := by
  obtain ⟨z, m, c, h1, h2, h3, h4, h5⟩ := h.2.1 hno
  refine ⟨z, m, c, h1, h2, fun hvol => ?_⟩
  set V := boxVolume d (P.getD i []) z with hV
  have hn : (0 : ℝ) < P.length := by exact_mod_cast (by omega : 0 < P.length)
  have hn1 : (1 : ℝ) ≤ P.length := by exact_mod_cast (by omega : 1 ≤ P.length)
  have hrp : (0 : ℝ) < round := by exact_mod_cast hround
  have hr1 : (1 : ℝ) ≤ round := by exact_mod_cast hround
  have hg := hp.gamma.2
  obtain ⟨hd1, hd0, hdle⟩ := hp.delta
  rw [logFactor_ok hm hv hp (by omega), hm.half, hp.gamma.1, hm.log _ hrp] at h4 h5
  set L := Real.log (2 * P.length * (1 + gamma) / (delta * gamma)) with hL
  set F := 1 / 2 * ((1 + gamma) * Real.log round + L) with hF
  have hq : 1 < 2 * P.length * (1 + gamma) / (delta * gamma) := by
    rw [lt_div_iff₀ (mul_pos hd0 hg)]
    have : delta * gamma ≤ 1 * gamma := mul_le_mul_of_nonneg_right hdle hg.le
    nlinarith
  have hLp : 0 < L := Real.log_pos hq
  have hFp : 0 < F := by
    have : 0 ≤ Real.log round := Real.log_nonneg hr1
    rw [hF]; positivity
  change da = Fl.mul (v.sqrt (Fl.div (.fin F) (.fin (m : ℝ)))) (.fin V) at h4
  change Fl.lt (.fin (m : ℝ)) (Fl.mul (Fl.mul (.fin F) (Fl.div (.fin V) (.fin dl))) (Fl.div (.fin V) (.fin dl))) = false at h5
  rw [ap_div_fin hdl.ne'] at h5
  change Fl.lt (.fin (m : ℝ)) (.fin (F * (V / dl) * (V / dl))) = false at h5
  rw [fl_lt_fin, decide_eq_false_iff_not, not_lt] at h5
  have hmp : (0 : ℝ) < m := lt_of_lt_of_le (by positivity) h5
  have hm0 : 0 < m := by exact_mod_cast hmp
  rw [ap_div_fin hmp.ne'] at h3 h4
  rw [hm.sqrt _ (by positivity)] at h4
  refine ⟨Real.sqrt (F / m) * V, hm0, h3, h4, by positivity, ?_, ?_⟩
  · have hle : F / m ≤ (dl / V) ^ 2 := by
      rw [div_le_iff₀ hmp]
      have : F * (V / dl) * (V / dl) * (dl / V) ^ 2 = F := by field_simp
      calc F = F * (V / dl) * (V / dl) * (dl / V) ^ 2 := this.symm
        _ ≤ m * (dl / V) ^ 2 := mul_le_mul_of_nonneg_right h5 (by positivity)
        _ = _ := mul_comm _ _
    have := Real.sqrt_le_sqrt hle
    rw [Real.sqrt_sq (by positivity)] at this
    calc _ ≤ dl / V * V := mul_le_mul_of_nonneg_right this hvol.le
      _ = dl := by field_simp
  · unfold hoeffding
    have e1 : Real.sqrt (F / m) * V / V = Real.sqrt (F / m) := by field_simp
    rw [e1, Real.sq_sqrt (by positivity)]
    have e2 : -2 * (m : ℝ) * (F / m) = -((1 + gamma) * Real.log round) + -L := by
      rw [hF]; field_simp; ring
    rw [e2, Real.exp_add, hL, Real.exp_neg (Real.log _), Real.exp_log (by linarith), Real.rpow_def_of_pos hrp]
    have e3 : -((1 + gamma) * Real.log round) = Real.log round * -(1 + gamma) := by ring
    rw [e3]
    field_simp

/-- **C131.** Every estimate obtained by sampling a box that is not empty is the fraction of the points drawn from the
box that no other point covers, times its volume. By Hoeffding's inequality it misses the contribution by more than its
half width with a probability of at most `delta gamma / (n (1 + gamma)) round^-(1 + gamma)`. The half width is at most the
largest volume of a box times `coeff mult^round`. -/
theorem C131_estimates (hv : ApLaw v low) (hm : ApMath v) {delta mult alpha coeff gamma : ℝ}
    (hp : ApReals par delta mult alpha coeff gamma) (hd : 2 ≤ d) (hne : P ≠ []) (hb : Spec.Below d P r) (hlow : AboveLow low P)
    {kind : ApKind} (hac : kind = .greatest → Antichain d P) (heps : par.eps = .fin eps) (he0 : 0 ≤ eps) (fuel fuelS : Nat)
    (s : ApSt ℝ σ) :
    wpn True (apExtreme v par kind (P.map apF) (apF r) fuel fuelS)
      (fun _ s' => s'.rounds.map (·.round) = List.range' 1 s'.rounds.length ∧ ∀ c ∈ s'.rounds, ∀ i ∈ c.active, i < P.length ∧
        (c.noOps.getD i 0 = 0 → c.approx.getD i .nan = .fin (exclVol d P r i) ∧ c.pdelta.getD i .nan = .fin 0) ∧
        (c.noOps.getD i 0 ≠ 0 → ∃ (z : List ℝ) (m k : Nat), BoxOf d P r (P.getD i []) z ∧ SampOf d P z c.draws i m k ∧
          (0 < boxVolume d (P.getD i []) z → ∃ y : ℝ, 0 < m ∧ c.approx.getD i .nan = .fin (k / m * boxVolume d (P.getD i []) z) ∧
            c.pdelta.getD i .nan = .fin y ∧ 0 < y ∧
            (∃ (j : Nat) (z' : List ℝ), j < P.length ∧ BoxOf d P r (P.getD j []) z' ∧
              y ≤ boxVolume d (P.getD j []) z' * coeff * mult ^ c.round) ∧
            hoeffding m (boxVolume d (P.getD i []) z) y =
              delta * gamma / (P.length * (1 + gamma)) * (c.round : ℝ) ^ (-(1 + gamma)))))
      (fun _ _ => False) s := by
  refine (apExtreme_ok (N := True) hv hd hne hb hlow hac (fun _ => trivial) heps he0 (fun h => absurd trivial h) s).mono
    (fun _ s' ⟨R, hR, h⟩ => ⟨h.2.1, fun c hc i hi => ?_⟩) (fun _ _ h => h)
  obtain ⟨e, -, he⟩ := h.2.2.1 c hc
  obtain ⟨hin, hest⟩ := he i hi
  refine ⟨hin, fun h0 => ((hest.1 h0)).2, fun hno => ?_⟩
  have hround : 1 ≤ c.round := by
    have hmem : c.round ∈ s'.rounds.map (·.round) := List.mem_map.mpr ⟨c, hc, rfl⟩
    rw [h.2.1, List.mem_range'_1] at hmem
    exact hmem.1
  obtain ⟨Z, hZ, hatt⟩ := hR (List.ne_nil_of_mem hc)
  rw [rd_iter hp.coeff.1 hp.mult.1, hp.alpha.1] at hest
  obtain ⟨z0, m0, c0, hz0, hs0, -⟩ := hest.2.1 hno
  by_cases hvol : 0 < boxVolume d (P.getD i []) z0
  · have hRp : 0 < R := by
      have := (hZ i hin).2
      rw [← boxOf_volume hz0 (hZ i hin).1] at this
      linarith
    have hrd : 0 < R * coeff * mult ^ c.round := by
      have := hp.coeff.2; have := hp.mult.2; positivity
    have hdl : (if i = e then Fl.mul (.fin alpha) (.fin (R * coeff * mult ^ c.round)) else .fin (R * coeff * mult ^ c.round)) =
        (Fl.fin ((if i = e then alpha else 1) * (R * coeff * mult ^ c.round)) : Fl ℝ) := by
      split
      · rfl
      · rw [one_mul]
    rw [hdl] at hest
    have hal := hp.alpha
    have hfac : 0 < (if i = e then alpha else 1 : ℝ) ∧ (if i = e then alpha else 1 : ℝ) ≤ 1 := by
      split
      · exact hal.2
      · exact ⟨zero_lt_one, le_rfl⟩
    obtain ⟨z, m, k, g1, g2, g3⟩ := est_conf hv hm hp hin hround (mul_pos hfac.1 hrd) hest hno
    refine ⟨z, m, k, g1, g2, fun hz => ?_⟩
    obtain ⟨y, k1, k2, k3, k4, k5, k6⟩ := g3 hz
    refine ⟨y, k1, k2, k3, k4, ?_, k6⟩
    rcases hatt with h0 | ⟨j, hj, hRj⟩
    · exact absurd h0 hRp.ne'
    · refine ⟨j, Z j, hj, (hZ j hj).1, ?_⟩
      rw [← hRj]
      calc y ≤ _ := k5
        _ ≤ 1 * (R * coeff * mult ^ c.round) := mul_le_mul_of_nonneg_right hfac.2 hrd.le
        _ = _ := one_mul _
  · exact ⟨z0, m0, c0, hz0, hs0, fun h => absurd h hvol⟩

/-- **C131.** Over all points and any number of rounds these bounds add up to at most `delta`. -/
theorem C131_total {delta gamma : ℝ} (hd : 0 < delta) (hg : 0 < gamma) {n : Nat} (hn : 0 < n) (K : Nat) :
    ∑ _i ∈ Finset.range n, ∑ k ∈ Finset.range K, delta * gamma / (n * (1 + gamma)) * ((k + 1 : Nat) : ℝ) ^ (-(1 + gamma)) ≤ delta := by
  have hn' : (0 : ℝ) < n := by exact_mod_cast hn
  have hsum : ∀ K : Nat, ∑ k ∈ Finset.range K, ((k + 1 : Nat) : ℝ) ^ (-(1 + gamma)) ≤ (1 + gamma) / gamma := by
    intro K
    cases K with
    | zero => rw [Finset.sum_range_zero]; positivity
    | succ K =>
      rw [Finset.sum_range_succ']
      have hanti : AntitoneOn (fun x : ℝ => x ^ (-(1 + gamma))) (Set.Icc 1 (1 + (K : ℝ))) := by
        intro a ha b hb hab
        exact Real.rpow_le_rpow_of_nonpos (by linarith [ha.1]) hab (by linarith)
      have h1 := hanti.sum_le_integral
      have h2 : ∫ x in (1 : ℝ)..(1 + (K : ℝ)), x ^ (-(1 + gamma)) = (1 - (1 + (K : ℝ)) ^ (-gamma)) / gamma := by
        rw [integral_rpow (Or.inr ⟨by linarith, by
          rw [Set.uIcc_of_le (by linarith [Nat.cast_nonneg (α := ℝ) K])]
          exact fun h => absurd h.1 (by norm_num)⟩)]
        have e : -(1 + gamma) + 1 = -gamma := by ring
        rw [e, Real.one_rpow, div_neg, ← neg_div, neg_sub]
      rw [h2] at h1
      have h3 : (0 : ℝ) ≤ (1 + (K : ℝ)) ^ (-gamma) := by positivity
      have h4 : (1 - (1 + (K : ℝ)) ^ (-gamma)) / gamma ≤ 1 / gamma := div_le_div_of_nonneg_right (by linarith) hg.le
      have h5 : ∑ k ∈ Finset.range K, ((k + 1 + 1 : Nat) : ℝ) ^ (-(1 + gamma)) =
          ∑ i ∈ Finset.range K, (1 + ((i + 1 : Nat) : ℝ)) ^ (-(1 + gamma)) := by
        refine Finset.sum_congr rfl (fun k _ => ?_)
        congr 1
        push_cast; ring
      rw [h5]
      have h6 : (1 + gamma) / gamma = 1 / gamma + 1 := by field_simp
      rw [h6]
      have h7 : ((0 + 1 : Nat) : ℝ) ^ (-(1 + gamma)) = 1 := by norm_num
      rw [h7]
      linarith
  have : ∑ _i ∈ Finset.range n, ∑ k ∈ Finset.range K, delta * gamma / (n * (1 + gamma)) * ((k + 1 : Nat) : ℝ) ^ (-(1 + gamma)) =
      n * (delta * gamma / (n * (1 + gamma)) * ∑ k ∈ Finset.range K, ((k + 1 : Nat) : ℝ) ^ (-(1 + gamma))) := by
    rw [Finset.sum_const, Finset.card_range, nsmul_eq_mul, ← Finset.mul_sum]
  rw [this]
  calc _ ≤ n * (delta * gamma / (n * (1 + gamma)) * ((1 + gamma) / gamma)) := by
        refine mul_le_mul_of_nonneg_left (mul_le_mul_of_nonneg_left (hsum K) ?_) hn'.le
        positivity
    _ = delta := by field_simp

end

/-! ## C132: bf_fpras -/

section
variable {σ : Type} {v : ApEnv ℝ σ} {d : Nat} {P : List (List ℝ)} {r : List ℝ} {eps delta : ℝ}

theorem boxSum_bounds (hne : P ≠ []) (hb : Spec.Below d P r) :
    boxSum d P r P.length / P.length ≤ hvol d P r ∧ hvol d P r ≤ boxSum d P r P.length := by
  have h0 : 0 < P.length := List.length_pos_of_ne_nil hne
  have hn : (0 : ℝ) < P.length := by exact_mod_cast h0
  have hbox : ∀ i : Nat, i < P.length → boxVolume d (P.getD i []) r = hvol d [P.getD i []] r := by
    intro i hi
    rw [List.getD_eq_getElem _ _ hi]
    exact (hvol_single_range (hb.2 _ (List.getElem_mem hi)).2).symm
  constructor
  · rw [div_le_iff₀ hn]
    have hc : hvol d P r * P.length = ∑ _i ∈ Finset.range P.length, hvol d P r := by
      rw [Finset.sum_const, Finset.card_range, nsmul_eq_mul, mul_comm]
    rw [hc]
    refine Finset.sum_le_sum (fun i hi => ?_)
    have hi' := Finset.mem_range.mp hi
    rw [hbox i hi']
    refine hvol_mono ?_
    refine cov_sub fun x hx => ⟨P.getD i [], ?_, ?_⟩
    · rw [List.getD_eq_getElem _ _ hi']; exact List.getElem_mem hi'
    · rw [List.mem_singleton.mp hx]; exact fun _ _ => le_rfl
  · have : ∀ m : Nat, m ≤ P.length → hvol d (P.take m) r ≤ boxSum d P r m := by
      intro m
      induction m with
      | zero => intro _; rw [List.take_zero, hvol_nil]; simp [boxSum]
      | succ m ih =>
        intro hm
        have hm' : m < P.length := by omega
        rw [← List.take_append_getElem hm']
        unfold boxSum
        rw [Finset.sum_range_succ, hbox m hm', List.getD_eq_getElem _ _ hm']
        have h1 := hvol_append (d := d) (P := P.take m) (L := [P[m]]) (r := r)
        have h2 := ih (by omega)
        have h3 : 0 ≤ (MeasureTheory.volume (cov d (P.take m) r ∩ cov d [P[m]] r)).toReal := ENNReal.toReal_nonneg
        unfold boxSum at h2
        linarith
    have h := this P.length le_rfl
    rwa [List.take_length] at h

/-- **C132.** `bf_fpras::compute` ends after exactly `T = floor(12 log(1 / delta) / log 2 n / eps^2)` trials, without
exceptions and undefined behaviour. Each round draws a box, a point from it and then indices of points until one of them
dominates the point. With `M` complete rounds and `V` the sum of the volumes of all boxes, the result is `T V / (n M)`; it
is not less than `V / n`, while the hypervolume is between `V / n` and `V`. -/
theorem C132_compute_partial (hv : FpLaw v) (hne : P ≠ []) (hb : Spec.Below d P r) (he : 0 < eps) (hd0 : 0 < delta) (hd1 : delta ≤ 1)
    {fuel : Nat} (hf : ⌊trialsOf eps delta P.length⌋₊ < fuel) (e : σ) :
    wp (fpCompute v (.fin eps) (.fin delta) (P.map apF) (apF r) fuel)
      (fun o _ => FprasOf d P r ⌊trialsOf eps delta P.length⌋₊ o ∧ o.2.1.length ≤ ⌊trialsOf eps delta P.length⌋₊ ∧
        (o.2.1 ≠ [] → ∃ x : ℝ, o.1 = .fin x ∧ x = ⌊trialsOf eps delta P.length⌋₊ * boxSum d P r P.length / (P.length * o.2.1.length) ∧
          boxSum d P r P.length / P.length ≤ x)) (fun _ _ => False) e ∧
    boxSum d P r P.length / P.length ≤ hvol d P r ∧ hvol d P r ≤ boxSum d P r P.length := by
  refine ⟨(fpCompute_ok hv hne hb he hd0 hd1 hf e).mono (fun o _ ho => ?_) (fun _ _ h => h), boxSum_bounds hne hb⟩
  obtain ⟨h1, h2, h3, h4⟩ := id ho
  have hlen : o.2.1.length ≤ (o.2.1.map (fun c => c.tried.length)).sum := by
    clear h3 h4 h2 ho
    generalize o.2.1 = l at h1
    induction l with
    | nil => simp
    | cons c l ih =>
      rw [List.length_cons, List.map_cons, List.sum_cons]
      have hc : 1 ≤ c.tried.length := by
        obtain ⟨x, js, j, -, hj, -⟩ := h1 c List.mem_cons_self
        rw [hj]; simp
      have := ih (fun c hc => h1 c (List.mem_cons_of_mem _ hc))
      omega
  have hM : o.2.1.length ≤ ⌊trialsOf eps delta P.length⌋₊ := by omega
  refine ⟨ho, hM, fun hne' => ?_⟩
  have hn : (0 : ℝ) < P.length := by exact_mod_cast List.length_pos_of_ne_nil hne
  have hMp : (0 : ℝ) < o.2.1.length := by exact_mod_cast List.length_pos_of_ne_nil hne'
  rw [ap_div_fin (mul_pos hn hMp).ne'] at h4
  refine ⟨_, h4, rfl, ?_⟩
  have hV : 0 ≤ boxSum d P r P.length := Finset.sum_nonneg fun i hi => by
    refine boxVolume_nonneg ?_
    have hi' := Finset.mem_range.mp hi
    rw [List.getD_eq_getElem _ _ hi']
    exact (hb.2 _ (List.getElem_mem hi')).2
  rw [div_le_div_iff₀ hn (mul_pos hn hMp)]
  have hMr : (o.2.1.length : ℝ) ≤ ⌊trialsOf eps delta P.length⌋₊ := by exact_mod_cast hM
  have : boxSum d P r P.length * (P.length * o.2.1.length) ≤ boxSum d P r P.length * (P.length * ⌊trialsOf eps delta P.length⌋₊) :=
    mul_le_mul_of_nonneg_left (mul_le_mul_of_nonneg_left hMr hn.le) hV
  nlinarith

/-- With `delta = 1`, which the constructor accepts, there is no trial and `compute` returns a NaN. -/
theorem C132_delta_one (hv : FpLaw v) (hne : P ≠ []) (hb : Spec.Below d P r) (he : 0 < eps) {fuel : Nat} (hf : 0 < fuel) (e : σ) :
    fpConstruct (Fl.exact ℝ) (.fin 1) (.fin 1) = .ok (.fin 1, .fin 1) ∧
    wp (fpCompute v (.fin eps) (.fin 1) (P.map apF) (apF r) fuel) (fun o _ => o.1 = .nan) (fun _ _ => False) e := by
  have ht : ⌊trialsOf eps 1 P.length⌋₊ = 0 := by simp [trialsOf]
  refine ⟨?_, ?_⟩
  · unfold fpConstruct
    have h1 : Fl.le (Fl.fin (1 : ℝ)) (Fl.exact ℝ).zero = false := by
      change Fl.le (Fl.fin (1 : ℝ)) (Fl.fin 0) = false
      rw [fl_le_fin]; simp
    have h2 : Fl.gt (Fl.fin (1 : ℝ)) (Fl.exact ℝ).one = false := by
      change Fl.lt (Fl.fin (1 : ℝ)) (Fl.fin 1) = false
      rw [fl_lt_fin]; simp
    rw [h1, h2]
    rfl
  · refine ((C132_compute_partial hv hne hb he zero_lt_one le_rfl (by rw [ht]; exact hf) e).1).mono (fun o _ ho => ?_) (fun _ _ h => h)
    obtain ⟨⟨-, -, -, h4⟩, h5, -⟩ := ho
    rw [ht] at h4 h5
    rw [h4]
    have : o.2.1.length = 0 := by omega
    rw [this]
    simp [Fl.div]

/-- **C132.** The constructor accepts exactly `eps` and `delta` in `(0, 1]` (among numbers). -/
theorem C132_construct (eps delta : Fl ℝ) (he : eps ≠ .nan) (hd : delta ≠ .nan) :
    (fpConstruct (Fl.exact ℝ) eps delta = .ok (eps, delta) ↔ (.fin 0 < eps ∧ eps ≤ .fin 1) ∧ .fin 0 < delta ∧ delta ≤ .fin 1) ∧
    (¬ ((.fin 0 < eps ∧ eps ≤ .fin 1) ∧ .fin 0 < delta ∧ delta ≤ .fin 1) →
      fpConstruct (Fl.exact ℝ) eps delta = .throws .invalidArgument) := by
  have key : ∀ x : Fl ℝ, x ≠ .nan → ((Fl.le x (Fl.exact ℝ).zero || Fl.gt x (Fl.exact ℝ).one) = true ↔ ¬ (.fin 0 < x ∧ x ≤ .fin 1)) := by
    intro x hx
    rw [Bool.or_eq_true]
    change Fl.le x (.fin 0) = true ∨ Fl.lt (.fin 1) x = true ↔ _
    rw [Fl.le_iff hx (by simp), Fl.lt_iff (by simp) hx, not_and_or, not_lt, not_le]
  unfold fpConstruct
  by_cases h1 : .fin 0 < eps ∧ eps ≤ .fin 1
  · rw [if_neg (fun h => (key eps he).mp h h1)]
    by_cases h2 : .fin 0 < delta ∧ delta ≤ .fin 1
    · rw [if_neg (fun h => (key delta hd).mp h h2)]
      exact ⟨⟨fun _ => ⟨h1, h2⟩, fun _ => rfl⟩, fun h => absurd ⟨h1, h2⟩ h⟩
    · rw [if_pos ((key delta hd).mpr h2)]
      exact ⟨⟨fun h => by simp at h, fun h => absurd h.2 h2⟩, fun _ => rfl⟩
  · rw [if_pos ((key eps he).mpr h1)]
    exact ⟨⟨fun h => by simp at h, fun h => absurd h.1 h1⟩, fun _ => rfl⟩

/-- **C132.** All other methods throw; so does `bf_approx::compute` (C129). -/
theorem C132_unsupported (i : Nat) (pts : List (List (Fl ℝ))) (r : List (Fl ℝ)) :
    fpExclusive i pts r = .throws .invalidArgument ∧ fpContributor pts r = .throws .invalidArgument ∧
    fpContributions pts r = .throws .invalidArgument ∧ apCompute pts r = .throws .invalidArgument :=
  ⟨rfl, rfl, rfl, rfl⟩

/-- **C129.** The constructor of `bf_approx` accepts exactly `eps` and `delta` in `[0, 1]` (among numbers). -/
theorem C129_construct (par : ApPar ℝ) (he : par.eps ≠ .nan) (hd : par.delta ≠ .nan) :
    (apConstruct (Fl.exact ℝ) par = .ok par ↔ (.fin 0 ≤ par.eps ∧ par.eps ≤ .fin 1) ∧ .fin 0 ≤ par.delta ∧ par.delta ≤ .fin 1) ∧
    (¬ ((.fin 0 ≤ par.eps ∧ par.eps ≤ .fin 1) ∧ .fin 0 ≤ par.delta ∧ par.delta ≤ .fin 1) →
      apConstruct (Fl.exact ℝ) par = .throws .invalidArgument) := by
  have key : ∀ x : Fl ℝ, x ≠ .nan → ((Fl.lt x (Fl.exact ℝ).zero || Fl.gt x (Fl.exact ℝ).one) = true ↔ ¬ (.fin 0 ≤ x ∧ x ≤ .fin 1)) := by
    intro x hx
    rw [Bool.or_eq_true]
    change Fl.lt x (.fin 0) = true ∨ Fl.lt (.fin 1) x = true ↔ _
    rw [Fl.lt_iff hx (by simp), Fl.lt_iff (by simp) hx, not_and_or, not_le, not_le]
  unfold apConstruct
  by_cases h1 : .fin 0 ≤ par.eps ∧ par.eps ≤ .fin 1
  · rw [if_neg (fun h => (key _ he).mp h h1)]
    by_cases h2 : .fin 0 ≤ par.delta ∧ par.delta ≤ .fin 1
    · rw [if_neg (fun h => (key _ hd).mp h h2)]
      exact ⟨⟨fun _ => ⟨h1, h2⟩, fun _ => rfl⟩, fun h => absurd ⟨h1, h2⟩ h⟩
    · rw [if_pos ((key _ hd).mpr h2)]
      exact ⟨⟨fun h => by simp at h, fun h => absurd h.2 h2⟩, fun _ => rfl⟩
  · rw [if_pos ((key _ he).mpr h1)]
    exact ⟨⟨fun h => by simp at h, fun h => absurd h.1 h1⟩, fun _ => rfl⟩

end

/-! ## What is false of the code -/

/-- Environment for examples: exact rational arithmetic, the exact algorithms of the library, a constant as logarithm. -/
def apDemo : ApEnv ℚ (List ℚ) where
  op := Fl.exact ℚ
  g := demoGen
  hv := bestCompute (Num.ofFl (Fl.exact ℚ) 0) insSort
  ofNat m := .fin m
  trunc x := match x with | .fin a => ⌊a⌋₊ | _ => 0
  log _ := .fin (1 / 100)
  sqrt x := x
  pow x _ := x
  floor x := match x with | .fin a => .fin ⌊a⌋ | _ => x
  half := .fin (1 / 2)
  c5e4 := .fin (1 / 2000)

/-- the default parameters of `bf_approx` -/
def apDefault : ApPar ℚ :=
  ⟨true, 1, .fin (1 / 100), .fin (1 / 1000000), .fin (775 / 1000), .fin (1 / 5), .fin (1 / 10), .fin (1 / 4)⟩

def apSt0 : ApSt ℚ (List ℚ) := ⟨[], [], [], [], [], [], [], [], [], [], 0, [], []⟩

/-- `greatest_contributor` is wrong if a point is dominated: the points dominating it are not taken into account. With
the default parameters it returns the second of these points although that contributes nothing. -/
theorem C129_greatest_dominated :
    (apExtreme apDemo apDefault .greatest [[.fin (1 / 2), .fin (1 / 2)], [.fin (3 / 5), .fin (3 / 5)]] [.fin 1, .fin 1] 1 0 apSt0).1 =
      .ok 1 ∧
    exclusive QN (bestCompute QN insSort) 0 [[1 / 2, 1 / 2], [3 / 5, 3 / 5]] [1, 1] = .ok (9 / 100) ∧
    exclusive QN (bestCompute QN insSort) 1 [[1 / 2, 1 / 2], [3 / 5, 3 / 5]] [1, 1] = .ok 0 := by
  refine ⟨?_, ?_, ?_⟩ <;> decide +kernel

/-- From a box without volume no point is drawn; the estimate is a NaN. Without `use_exact` the first of these points is
returned as the least contributor although the second contributes nothing. -/
theorem C129_empty_box :
    (apExtreme apDemo { apDefault with useExact := false, mult := .fin 1, coeff := .fin 1, alpha := .fin 1 } .least
      [[.fin (1 / 5), .fin (1 / 5)], [.fin (1 / 10), .fin 1]] [.fin 1, .fin 1] 1 10 apSt0).1 = .ok 0 ∧
    exclusive QN (bestCompute QN insSort) 0 [[1 / 5, 1 / 5], [1 / 10, 1]] [1, 1] = .ok (16 / 25) ∧
    exclusive QN (bestCompute QN insSort) 1 [[1 / 5, 1 / 5], [1 / 10, 1]] [1, 1] = .ok 0 := by
  refine ⟨?_, ?_, ?_⟩ <;> decide +kernel

/-- The constructors accept NaN. -/
theorem C129_nan : apConstruct (Fl.exact ℚ) { apDefault with eps := .nan, delta := .nan } =
      .ok { apDefault with eps := .nan, delta := .nan } ∧
    fpConstruct (Fl.exact ℚ) .nan .nan = .ok (.nan, .nan) := by
  constructor <;> rfl

/-- If no round is completed, `bf_fpras::compute` returns infinity. -/
theorem C132_infinite :
    ∃ o, (fpCompute { apDemo with log := id } (.fin 1) (.fin 1) [[.fin (1 / 2), .fin (1 / 2)]] [.fin 1, .fin 1] 10 []).1 = .ok o ∧
      o.1 = Fl.pinf := by
  refine ⟨⟨.pinf, [], ⟨.fin 0, 0, [.fin (1 / 2), .fin (1 / 2)], [0, 0, 0, 0, 0, 0]⟩⟩, ?_, rfl⟩
  decide +kernel

/-! ## The hypotheses can be met -/

/-- the number a double stands for -/
def apToR (x : List (Fl ℝ)) : List ℝ := x.map (fun a => match a with | .fin a => a | _ => 0)

/-- The environment over the reals, with the exact algorithms of the library and an engine that always gives the lower
limit. -/
noncomputable def apRealEnv : ApEnv ℝ Unit where
  op := Fl.exact ℝ
  g := { real := fun a _ e => (a, e), int := fun a _ e => (a, e), ofInt := fun z => z }
  hv pts z := match bestCompute (RN (-100)) insSort (pts.map apToR) (apToR z) with
    | .ok a => .ok (.fin a)
    | .throws e => .throws e
    | .ub => .ub
    | .nofuel => .nofuel
  ofNat m := .fin m
  trunc x := match x with | .fin a => ⌊a⌋₊ | _ => 0
  log x := match x with | .fin a => .fin (Real.log a) | x => x
  sqrt x := match x with | .fin a => .fin (Real.sqrt a) | x => x
  pow x _ := x
  floor x := match x with | .fin a => .fin (⌊a⌋ : ℝ) | x => x
  half := .fin (1 / 2)
  c5e4 := .fin (1 / 2000)

theorem apToR_apF (x : List ℝ) : apToR (apF x) = x := by
  unfold apToR apF
  rw [List.map_map]
  exact List.map_id x

theorem apRealEnv_gen : apRealEnv.g.Lawful (fun _ => True) where
  real_mem a b e h := ⟨le_rfl, h⟩
  int_mem a b e h := ⟨le_rfl, h⟩
  ofInt_mem a b z _ _ h1 h2 := ⟨by change (a : ℝ) ≤ (z : ℝ); exact_mod_cast h1, by change (z : ℝ) ≤ (b : ℝ); exact_mod_cast h2⟩
  ofInt_int z := ⟨z, rfl⟩

theorem apRealEnv_law : ApLaw apRealEnv (-100) where
  op := rfl
  gen := apRealEnv_gen
  strict a b e h := h
  nat m := rfl
  hv d P z hd hne hb hlow := by
    have hm : (P.map apF).map apToR = P := by
      rw [List.map_map]
      conv_rhs => rw [← List.map_id P]
      exact List.map_congr_left (fun p _ => apToR_apF p)
    simp only [apRealEnv]
    rw [hm, apToR_apF, C59_default insSort_valid hd hb hne hlow]

theorem apRealEnv_fp : FpLaw apRealEnv where
  op := rfl
  gen := apRealEnv_gen
  strict a b e h := h
  nat m := rfl
  trunc x _ := rfl
  floor x := rfl
  log x _ := rfl

theorem apRealEnv_math : ApMath apRealEnv := ⟨fun _ _ => rfl, fun _ _ => rfl, rfl⟩

/-- the default parameters over the reals -/
noncomputable def apRealPar : ApPar ℝ :=
  ⟨true, 1, .fin (1 / 100), .fin (1 / 1000000), .fin (775 / 1000), .fin (1 / 5), .fin (1 / 10), .fin (1 / 4)⟩

theorem apRealPar_ok : ApReals apRealPar (1 / 1000000) (775 / 1000) (1 / 5) (1 / 10) (1 / 4) := by
  constructor <;> refine ⟨rfl, ?_⟩ <;> norm_num

def apPts : List (List ℝ) := [[1, 3], [2, 2], [3, 1]]

theorem apPts_below : Spec.Below 2 apPts [4, 4] := by
  refine ⟨rfl, fun p hp => ?_⟩
  simp only [apPts, List.mem_cons, List.not_mem_nil, or_false] at hp
  rcases hp with rfl | rfl | rfl <;> refine ⟨rfl, fun i hi => ?_⟩ <;> interval_cases i <;> norm_num

theorem apPts_low : AboveLow (-100) apPts := by
  intro p hp a ha
  simp only [apPts, List.mem_cons, List.not_mem_nil, or_false] at hp
  rcases hp with rfl | rfl | rfl <;> simp only [List.mem_cons, List.not_mem_nil, or_false] at ha <;> rcases ha with rfl | rfl <;> norm_num

theorem apPts_antichain : Antichain 2 apPts := by
  intro i j hi hj hji hw
  have h0 := hw 0 (by norm_num)
  have h1 := hw 1 (by norm_num)
  simp only [apPts, List.length_cons, List.length_nil] at hi hj
  interval_cases i <;> interval_cases j <;> simp [apPts] at h0 h1 hji <;> linarith

noncomputable def apRealSt : ApSt ℝ Unit := ⟨(), [], [], [], [], [], [], [], [], [], 0, [], []⟩

section
attribute [local irreducible] wp wpn

noncomputable example := C129_least (par := apRealPar) apRealEnv_law le_rfl (by simp [apPts]) apPts_below apPts_low rfl (by norm_num) 5 5 apRealSt

noncomputable example := C129_greatest_partial (par := apRealPar) apRealEnv_law le_rfl (by simp [apPts]) apPts_below apPts_low
  apPts_antichain rfl (by norm_num) 5 5 apRealSt

noncomputable example := C130_least (par := { apRealPar with trivial := 2 }) apRealEnv_law le_rfl (by simp [apPts]) apPts_below apPts_low rfl
  (by norm_num) rfl le_rfl (fuel := 1) le_rfl 0 apRealSt

noncomputable example := C130_greatest_partial (par := { apRealPar with trivial := 2 }) apRealEnv_law le_rfl (by simp [apPts]) apPts_below
  apPts_low apPts_antichain rfl (by norm_num) rfl le_rfl (fuel := 1) le_rfl 0 apRealSt

noncomputable example := C131_estimates (kind := .least) apRealEnv_law apRealEnv_math apRealPar_ok le_rfl (by simp [apPts]) apPts_below apPts_low
  (by simp) rfl (by norm_num) 5 5 apRealSt

noncomputable example := C132_compute_partial (eps := 1 / 2) (delta := 1 / 2) apRealEnv_fp (by simp [apPts]) apPts_below (by norm_num)
  (by norm_num) (by norm_num) (Nat.lt_succ_self _) ()

noncomputable example := C132_delta_one (eps := 1 / 2) apRealEnv_fp (by simp [apPts]) apPts_below (by norm_num) (fuel := 1) (by norm_num) ()

end

/-- a box: that of the second point, bounded by the two others -/
example : BoxOf 2 apPts [4, 4] [2, 2] [3, 3] := by
  refine ⟨rfl, fun i hi => ?_, fun i hi => ?_, fun q hq i hr => ?_, fun i hi => ?_⟩
  · interval_cases i <;> norm_num
  · interval_cases i <;> norm_num
  · obtain ⟨h1, h2, h3⟩ := hr
    simp only [apPts, List.mem_cons, List.not_mem_nil, or_false] at hq
    rcases hq with rfl | rfl | rfl <;> interval_cases i <;> simp at h2 ⊢
    · exact absurd (h3 1 (by norm_num) (by norm_num)) (lt_irrefl _)
    · exact absurd (h3 0 (by norm_num) (by norm_num)) (lt_irrefl _)
  · refine Or.inr ?_
    interval_cases i
    · refine ⟨[3, 1], by simp [apPts], ⟨by norm_num, by norm_num, fun j hj hne => ?_⟩, by norm_num⟩
      interval_cases j
      · exact absurd rfl hne
      · norm_num
    · refine ⟨[1, 3], by simp [apPts], ⟨by norm_num, by norm_num, fun j hj hne => ?_⟩, by norm_num⟩
      interval_cases j
      · norm_num
      · exact absurd rfl hne

end Verif.Props
