import Verif.Proof.HvRace

/-!
# The rounds of `bf_fpras`
-/

set_option autoImplicit false

namespace Verif.Props

open Verif Verif.Spec Verif.Hv Run

/-- What is assumed of the parameters: exact arithmetic over the reals, lawful random numbers below the upper limit,
conversions without rounding, the natural logarithm. -/
structure FpLaw {σ : Type} (v : ApEnv ℝ σ) : Prop where
  op : v.op = Fl.exact ℝ
  gen : v.g.Lawful (fun _ => True)
  strict : ∀ a b e, a < b → (v.g.real a b e).1 < b
  nat : ∀ m : Nat, v.ofNat m = .fin (m : ℝ)
  trunc : ∀ x : ℝ, 0 ≤ x → v.trunc (.fin x) = ⌊x⌋₊
  floor : ∀ x : ℝ, v.floor (.fin x) = .fin (⌊x⌋ : ℝ)
  log : ∀ x : ℝ, 0 < x → v.log (.fin x) = .fin (Real.log x)

/-- the point `q` is nowhere worse than `x` and better somewhere -/
def DomBy (d : Nat) (q x : List ℝ) : Prop := WeakDom d q x ∧ ∃ k : Nat, k < d ∧ q.getD k 0 < x.getD k 0

/-- the sum of the volumes of the first `k` boxes -/
noncomputable def boxSum (d : Nat) (P : List (List ℝ)) (r : List ℝ) (k : Nat) : ℝ :=
  ∑ i ∈ Finset.range k, boxVolume d (P.getD i []) r

/-- A round: the box is the one the random volume falls into when the volumes are stacked, the point is from the box,
the indices tried are those of points. -/
def RoundOf (d : Nat) (P : List (List ℝ)) (r : List ℝ) (c : FpRound ℝ) (x : List ℝ) : Prop :=
  (∃ u : ℝ, c.u = .fin u ∧ 0 ≤ u ∧ (∀ k : Nat, k < c.box → boxSum d P r (k + 1) < u) ∧ u ≤ boxSum d P r (c.box + 1)) ∧
  c.box < P.length ∧ c.x = apF x ∧ ApInBox d (P.getD c.box []) r x ∧ ∀ j ∈ c.tried, j < P.length

/-- The round ended with the first point tried that dominates the random point. -/
def RoundDone (d : Nat) (P : List (List ℝ)) (r : List ℝ) (c : FpRound ℝ) : Prop :=
  ∃ x js j, RoundOf d P r c x ∧ c.tried = js ++ [j] ∧ DomBy d (P.getD j []) x ∧ ∀ j' ∈ js, ¬ DomBy d (P.getD j' []) x

/-- The round was cut off: no point tried dominates the random point. -/
def RoundCut (d : Nat) (P : List (List ℝ)) (r : List ℝ) (c : FpRound ℝ) : Prop :=
  ∃ x, RoundOf d P r c x ∧ ∀ j ∈ c.tried, ¬ DomBy d (P.getD j []) x

section
variable {σ : Type} {v : ApEnv ℝ σ} {d : Nat} {P : List (List ℝ)} {r : List ℝ}

theorem boxVolume_nonneg {p z : List ℝ} (h : ∀ k : Nat, k < d → p.getD k 0 ≤ z.getD k 0) : 0 ≤ boxVolume d p z :=
  Finset.prod_nonneg fun k hk => sub_nonneg.mpr (h k (Finset.mem_range.mp hk))

theorem fpSums_ok (hb : Spec.Below d P r) : fpSums (Fl.exact ℝ) (apF r) (P.map apF) =
    ((List.range P.length).map (fun k => Fl.fin (boxSum d P r (k + 1))), .fin (boxSum d P r P.length)) := by
  unfold fpSums
  have key : ∀ (m : Nat), m ≤ P.length →
      ((P.take m).map apF).foldl (fun (s : List (Fl ℝ) × Fl ℝ) p => (s.1 ++ [(Fl.exact ℝ).add s.2 (volumeBetweenV (Num.ofFl (Fl.exact ℝ) 0) p (apF r))],
        (Fl.exact ℝ).add s.2 (volumeBetweenV (Num.ofFl (Fl.exact ℝ) 0) p (apF r)))) ([], (Fl.exact ℝ).zero) =
      ((List.range m).map (fun k => Fl.fin (boxSum d P r (k + 1))), .fin (boxSum d P r m)) := by
    intro m
    induction m with
    | zero => intro _; simp [boxSum]; rfl
    | succ m ih =>
      intro hm
      have hm' : m < P.length := by omega
      have hp := hb.2 P[m] (List.getElem_mem hm')
      rw [← List.take_append_getElem hm', List.map_append, List.foldl_append, ih (by omega)]
      have hvol : volumeBetweenV (Num.ofFl (Fl.exact ℝ) 0) (apF P[m]) (apF r) = .fin (boxVolume d (P.getD m []) r) := by
        rw [List.getD_eq_getElem _ _ hm']
        have := apVolume (p := P[m]) (z := r) hp.1 hp.2
        rw [hvol_single_range hp.2] at this
        exact this
      simp only [List.map_cons, List.map_nil, List.foldl_cons, List.foldl_nil]
      rw [hvol]
      have hs : (Fl.exact ℝ).add (.fin (boxSum d P r m)) (.fin (boxVolume d (P.getD m []) r)) = .fin (boxSum d P r (m + 1)) := by
        unfold boxSum
        rw [Finset.sum_range_succ]; rfl
      rw [hs, List.range_succ, List.map_append]
      rfl
  have := key P.length le_rfl
  rw [List.take_length] at this
  exact this

theorem fpFind_ok (hne : P ≠ []) {u : ℝ} (hu : u ≤ boxSum d P r P.length) :
    let i := fpFind ((List.range P.length).map (fun k => Fl.fin (boxSum d P r (k + 1)))) (.fin u)
    i < P.length ∧ (∀ k : Nat, k < i → boxSum d P r (k + 1) < u) ∧ u ≤ boxSum d P r (i + 1) := by
  have h0 : 0 < P.length := List.length_pos_of_ne_nil hne
  intro i
  set l := (List.range P.length).map (fun k => Fl.fin (boxSum d P r (k + 1))) with hl
  have hll : l.length = P.length := by simp [hl]
  have hget : ∀ (k : Nat) (hk : k < l.length), l[k] = Fl.fin (boxSum d P r (k + 1)) := by
    intro k hk
    simp [hl]
  have hi : i < l.length := by
    refine List.findIdx_lt_length_of_exists ⟨Fl.fin (boxSum d P r P.length), ?_, ?_⟩
    · refine List.mem_map.mpr ⟨P.length - 1, List.mem_range.mpr (by omega), ?_⟩
      rw [Nat.sub_add_cancel h0]
    · rw [fl_lt_fin]
      simpa using hu
  refine ⟨hll ▸ hi, fun k hk => ?_, ?_⟩
  · have := List.not_of_lt_findIdx (p := fun a => !Fl.lt a (Fl.fin u)) (xs := l) hk
    rw [hget k (lt_trans hk hi), fl_lt_fin] at this
    simpa using this
  · have : (!Fl.lt l[i] (Fl.fin u)) = true := List.findIdx_getElem (w := hi)
    rw [hget i hi, fl_lt_fin] at this
    simpa using this

theorem wp_fpDraw01 (hv : FpLaw v) {Q : Fl ℝ → σ → Prop} {E : Exn → σ → Prop} {e : σ}
    (h : ∀ u e', 0 ≤ u → u < 1 → Q (.fin u) e') : wp v.g.draw01 Q E e :=
  h _ _ (hv.gen.real_mem 0 1 e zero_le_one).1 (hv.strict 0 1 e zero_lt_one)

/-- the random point is from the box -/
theorem wp_fpPoint (hv : FpLaw v) (hr : r.length = d) {p : List ℝ} (hp : p.length = d)
    (hpr : ∀ k : Nat, k < d → p.getD k 0 ≤ r.getD k 0) (e : σ) :
    wp (fpPoint v (apF p) (apF r)) (fun y _ => ∃ x, y = apF x ∧ ApInBox d p r x) (fun _ _ => False) e := by
  unfold fpPoint
  rw [apF_length, hr]
  refine (wp_range (fun m y _ => ∃ x : List ℝ, y = apF x ∧ x.length = m ∧ ∀ k : Nat, k < m →
    p.getD k 0 ≤ x.getD k 0 ∧ x.getD k 0 ≤ r.getD k 0) d [] e ⟨[], rfl, rfl, fun k hk => absurd hk (Nat.not_lt_zero k)⟩ ?_).mono
    (fun y _ ⟨x, h1, h2, h3⟩ => ⟨x, h1, h2, h3⟩) (fun _ _ h => h)
  rintro m y e hm ⟨x, rfl, h2, h3⟩
  rw [wp_bind, get_apF (by omega), wp_lift_ok, wp_bind, get_apF (by omega), wp_lift_ok, wp_bind]
  refine wp_fpDraw01 hv fun u e' hu0 hu1 => ?_
  rw [wp_pure, hv.op]
  refine ⟨x ++ [p.getD m 0 + u * (r.getD m 0 - p.getD m 0)], ?_, by simp [h2], fun k hk => ?_⟩
  · unfold apF
    rw [List.map_append]
    rfl
  · by_cases hkm : k < m
    · rw [List.getD_append _ _ _ _ (by omega)]
      exact h3 k hkm
    · have : k = m := by omega
      subst this
      rw [List.getD_append_right _ _ _ _ (by omega), h2, Nat.sub_self]
      change p.getD k 0 ≤ _ + _ ∧ p.getD k 0 + u * _ ≤ _
      have := hpr k hm
      constructor <;> nlinarith

/-- the inner loop -/
theorem wp_fpTry (hv : FpLaw v) (hne : P ≠ []) (hlen : ∀ p ∈ P, p.length = d) {x : List ℝ} (hx : x.length = d) {t : Nat}
    (fuel ms : Nat) (js : List Nat) (hms : ms ≤ t) (hf : t - ms < fuel)
    (hjs : ∀ j ∈ js, j < P.length ∧ ¬ DomBy d (P.getD j []) x) (e : σ) :
    wp (fpTry v (P.map apF) (apF x) (.fin (t : ℝ)) fuel ms js)
      (fun o _ => o.2.1 ≤ t ∧ o.2.1 + js.length = ms + o.2.2.length ∧ (∀ j ∈ o.2.2, j < P.length) ∧
        (o.1 = true → o.2.1 = t ∧ ∀ j ∈ o.2.2, ¬ DomBy d (P.getD j []) x) ∧
        (o.1 = false → ms < o.2.1 ∧ ∃ js' j, o.2.2 = js' ++ [j] ∧ DomBy d (P.getD j []) x ∧ ∀ j' ∈ js', ¬ DomBy d (P.getD j' []) x))
      (fun _ _ => False) e := by
  induction fuel generalizing ms js e with
  | zero => omega
  | succ k ih =>
    unfold fpTry
    rw [hv.nat]
    have hge : Fl.ge (Fl.fin (ms : ℝ)) (Fl.fin (t : ℝ)) = decide (t ≤ ms) := by
      unfold Fl.ge
      rw [fl_le_fin]
      simp
    rw [hge]
    by_cases hd : t ≤ ms
    · rw [if_pos (decide_eq_true hd), wp_pure]
      exact ⟨hms, rfl, fun j hj => (hjs j hj).1, fun _ => ⟨le_antisymm hms hd, fun j hj => (hjs j hj).2⟩, fun h => by simp at h⟩
    · rw [if_neg (by simpa using hd), wp_bind]
      refine wp_fpDraw01 hv fun u e' hu0 hu1 => ?_
      have hn0 : 0 < P.length := List.length_pos_of_ne_nil hne
      have hn : (0 : ℝ) < P.length := by exact_mod_cast hn0
      have hj : v.trunc (v.op.mul (v.ofNat (P.map apF).length) (.fin u)) = ⌊(P.length : ℝ) * u⌋₊ := by
        rw [hv.nat, hv.op, List.length_map]
        exact hv.trunc _ (mul_nonneg hn.le hu0)
      dsimp only
      rw [hj]
      set j := ⌊(P.length : ℝ) * u⌋₊ with hjdef
      have hjlt : j < P.length := by
        rw [hjdef, Nat.floor_lt (mul_nonneg hn.le hu0)]
        nlinarith
      rw [wp_bind, get_map_apF hjlt, wp_lift_ok, apF_length, hx]
      have hq : domCmp (Num.ofFl v.op 0) (apF x) (apF (P.getD j [])) d = .bDomA ↔ DomBy d (P.getD j []) x := by
        rw [hv.op]
        exact apDom_iff x (P.getD j []) d
      by_cases hdom : DomBy d (P.getD j []) x
      · rw [if_pos (hq.mpr hdom), wp_pure]
        refine ⟨by dsimp only; omega, by simp; omega, fun i hi => ?_, fun h => by simp at h, fun _ => ⟨by dsimp only; omega, js, j, rfl, hdom,
          fun i hi => (hjs i hi).2⟩⟩
        rcases List.mem_append.mp hi with hi | hi
        · exact (hjs i hi).1
        · rw [List.mem_singleton.mp hi]; exact hjlt
      · rw [if_neg (fun h => hdom (hq.mp h))]
        refine (ih (ms + 1) (js ++ [j]) (by omega) (by omega) (fun i hi => ?_) e').mono (fun o _ ho => ?_) (fun _ _ h => h)
        · rcases List.mem_append.mp hi with hi | hi
          · exact hjs i hi
          · rw [List.mem_singleton.mp hi]; exact ⟨hjlt, hdom⟩
        · obtain ⟨h1, h2, h3, h4, h5⟩ := ho
          rw [List.length_append, List.length_singleton] at h2
          exact ⟨h1, by omega, h3, h4, fun h => ⟨by have := (h5 h).1; omega, (h5 h).2⟩⟩

/-- What `compute` returns after `t` trials. -/
def FprasOf (d : Nat) (P : List (List ℝ)) (r : List ℝ) (t : Nat) (o : Fl ℝ × List (FpRound ℝ) × FpRound ℝ) : Prop :=
  (∀ c ∈ o.2.1, RoundDone d P r c) ∧ RoundCut d P r o.2.2 ∧
  (o.2.1.map (fun c => c.tried.length)).sum + o.2.2.tried.length = t ∧
  o.1 = Fl.div (.fin ((t : ℝ) * boxSum d P r P.length)) (.fin ((P.length : ℝ) * o.2.1.length))

theorem wp_fpLoop (hv : FpLaw v) (hne : P ≠ []) (hb : Spec.Below d P r) {t fuelT : Nat} (hfT : t < fuelT)
    (fuel ms : Nat) (hist : List (FpRound ℝ)) (hms : ms ≤ t) (hf : t - ms < fuel)
    (hh : (hist.map (fun c => c.tried.length)).sum = ms) (hr : ∀ c ∈ hist, RoundDone d P r c) (e : σ) :
    wp (fpLoop v (P.map apF) (apF r) ((List.range P.length).map (fun k => Fl.fin (boxSum d P r (k + 1))))
      (.fin (boxSum d P r P.length)) (.fin (t : ℝ)) fuelT fuel ms hist) (fun o _ => FprasOf d P r t o) (fun _ _ => False) e := by
  induction fuel generalizing ms hist e with
  | zero => omega
  | succ k ih =>
    have hlenP : ∀ p ∈ P, p.length = d := fun p hp => (hb.2 p hp).1
    have hV : 0 ≤ boxSum d P r P.length := Finset.sum_nonneg fun i hi => by
      refine boxVolume_nonneg ?_
      have hi' := Finset.mem_range.mp hi
      rw [List.getD_eq_getElem _ _ hi']
      exact (hb.2 _ (List.getElem_mem hi')).2
    unfold fpLoop
    have hz : v.op.zero = .fin 0 := by rw [hv.op]; rfl
    rw [wp_bind, hz]
    refine Gen.wp_drawReal hv.gen hV (by rw [hv.op]; rfl) fun u e' hu0 hu1 => ?_
    dsimp only
    obtain ⟨hi, hlo, hup⟩ := fpFind_ok (d := d) (r := r) hne hu1
    generalize fpFind ((List.range P.length).map (fun k => Fl.fin (boxSum d P r (k + 1)))) (.fin u) = i at hi hlo hup ⊢
    rw [wp_bind, get_map_apF hi, wp_lift_ok, wp_bind]
    have hpi := hb.2 _ (List.getElem_mem hi)
    rw [← List.getD_eq_getElem P [] hi] at hpi
    refine (wp_fpPoint hv hb.1 hpi.1 hpi.2 e').mono ?_ (fun _ _ h => h)
    rintro _ e2 ⟨x, rfl, hx⟩
    rw [wp_bind]
    refine (wp_fpTry hv hne hlenP hx.1 fuelT ms [] hms (by omega) (fun j hj => by simp at hj) e2).mono ?_ (fun _ _ h => h)
    rintro ⟨b, ms', js⟩ e3 ⟨g1, g2, g3, g4, g5⟩
    dsimp only at g1 g2 g3 g4 g5 ⊢
    rw [List.length_nil, Nat.add_zero] at g2
    have hro : RoundOf d P r ⟨.fin u, i, apF x, js⟩ x := ⟨⟨u, rfl, hu0, hlo, hup⟩, hi, rfl, hx, g3⟩
    cases b with
    | true =>
      rw [if_pos rfl, wp_pure]
      refine ⟨hr, ⟨x, hro, (g4 rfl).2⟩, ?_, ?_⟩
      · have := (g4 rfl).1
        dsimp only
        omega
      · rw [hv.nat, hv.nat, hv.op, List.length_map]
        rfl
    | false =>
      rw [if_neg (by simp)]
      obtain ⟨k1, js', j, k2, k3, k4⟩ := g5 rfl
      refine ih ms' (hist ++ [⟨.fin u, i, apF x, js⟩]) g1 (by omega) ?_ (fun c hc => ?_) e3
      · rw [List.map_append, List.sum_append, hh]
        simp
        omega
      · rcases List.mem_append.mp hc with hc | hc
        · exact hr c hc
        · rw [List.mem_singleton.mp hc]
          exact ⟨x, js', j, hro, k2, k3, k4⟩

/-- The number of trials of the paper. -/
noncomputable def trialsOf (eps delta : ℝ) (n : Nat) : ℝ := 12 * Real.log (1 / delta) / Real.log 2 * n / eps / eps

theorem fpTrials_ok (hv : FpLaw v) {eps delta : ℝ} (he : 0 < eps) (hd0 : 0 < delta) (hd1 : delta ≤ 1) (n : Nat) :
    fpTrials v (.fin eps) (.fin delta) n = .fin (⌊trialsOf eps delta n⌋₊ : ℝ) := by
  have h1 : (0 : ℝ) ≤ Real.log (1 / delta) := Real.log_nonneg (by rw [le_div_iff₀ hd0]; linarith)
  have h2 : (0 : ℝ) < Real.log 2 := Real.log_pos (by norm_num)
  have hx : 0 ≤ trialsOf eps delta n := by unfold trialsOf; positivity
  unfold fpTrials
  rw [hv.op, hv.nat, hv.nat, hv.nat]
  have e1 : (Fl.exact ℝ).div (Fl.exact ℝ).one (.fin delta) = .fin (1 / delta) := by
    change Fl.div (.fin 1) (.fin delta) = _
    simp [Fl.div, hd0.ne']
  rw [e1, hv.log _ (by positivity)]
  have h2' : v.log (.fin ((2 : Nat) : ℝ)) = .fin (Real.log 2) := by
    rw [hv.log _ (by norm_num)]; norm_num
  rw [h2']
  have dv : ∀ a b : ℝ, b ≠ 0 → (Fl.exact ℝ).div (.fin a) (.fin b) = .fin (a / b) := by
    intro a b hb
    change Fl.div (.fin a) (.fin b) = _
    simp [Fl.div, hb]
  have ml : ∀ a b : ℝ, (Fl.exact ℝ).mul (.fin a) (.fin b) = .fin (a * b) := fun a b => rfl
  rw [ml, dv _ _ h2.ne', ml, dv _ _ he.ne', dv _ _ he.ne', hv.floor]
  have : ((12 : Nat) : ℝ) * Real.log (1 / delta) / Real.log 2 * n / eps / eps = trialsOf eps delta n := by
    unfold trialsOf; norm_num
  rw [this, ← natCast_floor_eq_intCast_floor hx]

theorem fpCompute_ok (hv : FpLaw v) (hne : P ≠ []) (hb : Spec.Below d P r) {eps delta : ℝ} (he : 0 < eps) (hd0 : 0 < delta)
    (hd1 : delta ≤ 1) {fuel : Nat} (hf : ⌊trialsOf eps delta P.length⌋₊ < fuel) (e : σ) :
    wp (fpCompute v (.fin eps) (.fin delta) (P.map apF) (apF r) fuel)
      (fun o _ => FprasOf d P r ⌊trialsOf eps delta P.length⌋₊ o) (fun _ _ => False) e := by
  have hdim : dimOk (apF r).length (P.map apF) (apF r) = true := by
    unfold dimOk
    rw [apF_length, Bool.and_eq_true, List.all_eq_true]
    refine ⟨by simp, fun q hq => ?_⟩
    obtain ⟨p, hp, rfl⟩ := List.mem_map.mp hq
    rw [apF_length, (hb.2 p hp).1, hb.1]
    simp
  have := wp_fpLoop hv hne hb hf fuel 0 [] (Nat.zero_le _) (by omega) rfl (fun c hc => by simp at hc) e
  unfold wp fpCompute
  rw [if_pos hdim, hv.op]
  dsimp only
  rw [fpSums_ok hb, List.length_map, fpTrials_ok hv he hd0 hd1]
  exact this

end

end Verif.Props
