import Verif.Model.Genetic
import Verif.Props.Bounds
import Mathlib.Analysis.SpecialFunctions.Pow.Real

/-!
# C49, C50: crossover and mutation
-/

set_option autoImplicit false

namespace Verif.Props

open Verif Genetic Prob

variable {K σ : Type} [Field K] [LinearOrder K]

/-- What is used of `std::pow`: on a non-negative base it is a non-negative number (possibly infinite), it does not
exceed 1 if the base is at least 1 and the exponent not positive, or the base at most 1 and the exponent not negative. -/
structure PowLaws (pw : Fl K → Fl K → Fl K) : Prop where
  nonneg : ∀ x y : Fl K, x ≠ .nan → y ≠ .nan → .fin 0 ≤ x → pw x y ≠ .nan ∧ .fin 0 ≤ pw x y
  ge_one : ∀ x y : Fl K, x ≠ .nan → .fin 1 ≤ x → y ≤ .fin 0 → pw x y ≤ .fin 1
  le_one : ∀ x y : Fl K, .fin 0 ≤ x → x ≤ .fin 1 → y ≠ .nan → .fin 0 ≤ y → pw x y ≤ .fin 1

omit [Field K] in
theorem nonneg_cases {z : K} {x : Fl K} (h1 : x ≠ .nan) (h2 : .fin z ≤ x) : x = .pinf ∨ ∃ k, x = .fin k ∧ z ≤ k := by
  cases x with
  | nan => exact absurd rfl h1
  | ninf => simp [Fl.le_def, Fl.cls] at h2
  | pinf => exact Or.inl rfl
  | fin k => exact Or.inr ⟨k, rfl, by simpa using h2⟩

omit [Field K] in
theorem between_cases {a b : K} {x : Fl K} (h1 : .fin a ≤ x) (h2 : x ≤ .fin b) : ∃ k, x = .fin k ∧ a ≤ k ∧ k ≤ b := by
  cases x with
  | nan => simp [Fl.le_def, Fl.cls] at h2
  | ninf => simp [Fl.le_def, Fl.cls] at h1
  | pinf => simp [Fl.le_def, Fl.cls] at h2
  | fin k => exact ⟨k, rfl, by simpa using h1, by simpa using h2⟩

omit [Field K] in
theorem clamp_spec {l u v : Fl K} (hlu : l ≤ u) (hu : u ≠ .nan) (hv : v ≠ .nan) :
    l ≤ clamp l u v ∧ clamp l u v ≤ u := by
  have := stick1_spec hlu hu hv
  exact ⟨this.1, this.2.1⟩

variable [IsStrictOrderedRing K]

/-- Real powers with the conventions of the C standard (negative bases: NaN, a simplification). -/
noncomputable def powR (x y : Fl ℝ) : Fl ℝ :=
  if y = .fin 0 ∨ x = .fin 1 then .fin 1
  else match x, y with
    | .fin a, .fin b =>
      if a = 0 then (if 0 < b then .fin 0 else .pinf) else if 0 < a then .fin (a ^ b) else .nan
    | .pinf, .fin b => if 0 < b then .pinf else .fin 0
    | .fin a, .pinf => if a < 0 then .nan else if a < 1 then .fin 0 else .pinf
    | .fin a, .ninf => if a < 0 then .nan else if a < 1 then .pinf else .fin 0
    | .pinf, .pinf => .pinf
    | .pinf, .ninf => .fin 0
    | _, _ => .nan

/-- The laws hold of the power function. -/
theorem powR_laws : PowLaws powR where
  nonneg x y hx hy h := by
    unfold powR
    split
    · simp
    · rcases nonneg_cases hx h with rfl | ⟨a, rfl, ha⟩
      · cases y <;> simp at hy ⊢
        · split <;> simp [Fl.le_def, Fl.cls]
        · simp [Fl.le_def, Fl.cls]
      · cases y with
        | nan => exact absurd rfl hy
        | ninf => simp [not_lt.mpr ha]; split <;> simp [Fl.le_def, Fl.cls]
        | pinf => simp [not_lt.mpr ha]; split <;> simp [Fl.le_def, Fl.cls]
        | fin b =>
          simp only
          split
          · split <;> simp [Fl.le_def, Fl.cls]
          · rename_i h0
            rw [if_pos (lt_of_le_of_ne ha (Ne.symm h0))]
            simpa using Real.rpow_nonneg ha b
  ge_one x y hx h hy := by
    unfold powR
    split
    · exact le_rfl
    · rename_i hne
      push Not at hne
      rcases nonneg_cases hx h with rfl | ⟨a, rfl, ha⟩
      · cases y with
        | nan => simp [Fl.le_def, Fl.cls] at hy
        | pinf => simp [Fl.le_def, Fl.cls] at hy
        | ninf => simp
        | fin b =>
          have hb : b ≤ 0 := by simpa using hy
          simp [not_lt.mpr hb]
      · cases y with
        | nan => simp [Fl.le_def, Fl.cls] at hy
        | pinf => simp [Fl.le_def, Fl.cls] at hy
        | ninf =>
          have : ¬ a < 0 := by linarith
          simp [this, not_lt.mpr ha]
        | fin b =>
          have hb : b ≤ 0 := by simpa using hy
          have h0 : a ≠ 0 := by linarith
          have h1 : 0 < a := by linarith
          simp only [h0, if_false, h1, if_true]
          simpa using Real.rpow_le_one_of_one_le_of_nonpos ha hb
  le_one x y h h' hy hy' := by
    unfold powR
    split
    · exact le_rfl
    · rename_i hne
      push Not at hne
      obtain ⟨a, rfl, ha, ha'⟩ := between_cases h h'
      have ha1 : a < 1 := lt_of_le_of_ne ha' (fun e => hne.2 (by rw [e]))
      rcases nonneg_cases hy hy' with rfl | ⟨b, rfl, hb⟩
      · simp [not_lt.mpr ha, ha1]
      · have hb0 : 0 < b := lt_of_le_of_ne hb (fun e => hne.1 (by rw [e]))
        simp only [hb0, if_true]
        split
        · simp
        · rename_i h0
          rw [if_pos (lt_of_le_of_ne ha (Ne.symm h0))]
          simpa using Real.rpow_le_one ha ha' hb

/-! ## Values -/

theorem betaq_spec {pw : Fl K → Fl K → Fl K} (hp : PowLaws pw) {beta eta r : K} (hb : 1 ≤ beta) (he : -1 ≤ eta)
    (hr : 0 ≤ r) (hr1 : r ≤ 1) :
    sbxBetaq pw (Fl.exact K) (.fin beta) (.fin eta) (.fin r) ≠ .nan ∧
    .fin 0 ≤ sbxBetaq pw (Fl.exact K) (.fin beta) (.fin eta) (.fin r) := by
  have hexp : (Fl.exact K).div (Fl.exact K).one ((Fl.exact K).add (.fin eta) (Fl.exact K).one) ≠ .nan := by
    simp only [Fl.exact, Fl.add, Fl.div]
    split <;> simp
  have hneg : Fl.neg ((Fl.exact K).add (.fin eta) (Fl.exact K).one) = .fin (-(eta + 1)) := by
    simp [Fl.exact, Fl.add, Fl.neg]
  obtain ⟨p, hpw, hp0, hp1⟩ : ∃ p, pw (.fin beta) (.fin (-(eta + 1))) = .fin p ∧ 0 ≤ p ∧ p ≤ 1 :=
    between_cases (hp.nonneg _ _ (by simp) (by simp) (by simp; linarith)).2
      (hp.ge_one _ _ (by simp) (by simpa using hb) (by simp; linarith))
  unfold sbxBetaq
  simp only [hneg, hpw]
  have ha : (Fl.exact K).sub two (.fin p) = .fin (2 - p) := by
    simp [Fl.exact, Fl.sub, Fl.neg, Fl.add, two, sub_eq_add_neg]
  have hm : (Fl.exact K).mul (.fin r) (.fin (2 - p)) = .fin (r * (2 - p)) := by simp [Fl.exact, Fl.mul]
  have hs : (Fl.exact K).sub two (.fin (r * (2 - p))) = .fin (2 - r * (2 - p)) := by
    simp [Fl.exact, Fl.sub, Fl.neg, Fl.add, two, sub_eq_add_neg]
  rw [ha, hm, hs]
  split
  · exact hp.nonneg _ _ (by simp) hexp (by simp; nlinarith)
  · have h2 : 0 ≤ 2 - r * (2 - p) := by nlinarith
    have hd : ∀ c : K, 0 ≤ c → (Fl.exact K).div (Fl.exact K).one (.fin c) ≠ .nan ∧
        .fin 0 ≤ (Fl.exact K).div (Fl.exact K).one (.fin c) := by
      intro c hc
      simp only [Fl.exact, Fl.div]
      split
      · simp [Fl.le_def, Fl.cls]
      · simpa using hc
    exact hp.nonneg _ _ (hd _ h2).1 hexp (hd _ h2).2

theorem sbxValues_spec {pw : Fl K → Fl K → Fl K} (hp : PowLaws pw) {a b y1 y2 eta r : K} (h1 : a ≤ y1) (h12 : y1 < y2)
    (h2 : y2 ≤ b) (he : -1 ≤ eta) (hr : 0 ≤ r) (hr1 : r ≤ 1) :
    (sbxValues pw (Fl.exact K) (.fin a) (.fin b) (.fin y1) (.fin y2) (.fin eta) (.fin r)).1 ≠ .nan ∧
    (sbxValues pw (Fl.exact K) (.fin a) (.fin b) (.fin y1) (.fin y2) (.fin eta) (.fin r)).2 ≠ .nan := by
  have hd : 0 < y2 - y1 := by linarith
  have hbeta : ∀ c : K, 0 ≤ c → (Fl.exact K).add (Fl.exact K).one
      ((Fl.exact K).div ((Fl.exact K).mul two (.fin c)) ((Fl.exact K).sub (.fin y2) (.fin y1))) =
      .fin (1 + 2 * c / (y2 - y1)) := by
    intro c hc
    have : y2 + -y1 ≠ 0 := by rw [← sub_eq_add_neg]; exact ne_of_gt hd
    simp [Fl.exact, Fl.add, Fl.div, Fl.mul, Fl.sub, Fl.neg, two, this, sub_eq_add_neg]
  have hge : ∀ c : K, 0 ≤ c → 1 ≤ 1 + 2 * c / (y2 - y1) := by
    intro c hc
    have : 0 ≤ 2 * c / (y2 - y1) := by positivity
    linarith
  have hsub : ∀ x y : K, (Fl.exact K).sub (.fin x) (.fin y) = .fin (x - y) := by
    intro x y; simp [Fl.exact, Fl.sub, Fl.neg, Fl.add, sub_eq_add_neg]
  have hadd : ∀ x y : K, (Fl.exact K).add (.fin x) (.fin y) = .fin (x + y) := by
    intro x y; simp [Fl.exact, Fl.add]
  have hmul : ∀ q : Fl K, q ≠ .nan → .fin 0 ≤ q → (Fl.exact K).mul q (.fin (y2 - y1)) = .pinf ∨
      ∃ k, (Fl.exact K).mul q (.fin (y2 - y1)) = .fin k := by
    intro q hq hq0
    rcases nonneg_cases hq hq0 with rfl | ⟨k, rfl, -⟩
    · left; simp [Fl.exact, Fl.mul, Fl.infMul, ne_of_gt hd, hd]
    · right; exact ⟨_, rfl⟩
  unfold sbxValues
  simp only
  rw [hsub y1 a, hsub b y2, hbeta _ (by linarith), hbeta _ (by linarith), hadd, hsub y2 y1]
  have b1 := betaq_spec hp (hge (y1 - a) (by linarith)) he hr hr1
  have b2 := betaq_spec hp (hge (b - y2) (by linarith)) he hr hr1
  have hh : (0 : K) < 1 / 2 := by positivity
  constructor
  · rcases hmul _ b1.1 b1.2 with e | ⟨k, e⟩ <;> rw [e]
    · simp [Fl.exact, Fl.sub, Fl.neg, Fl.add, Fl.mul, half, Fl.infMul]
    · rw [hsub]; simp [Fl.exact, Fl.mul, half]
  · rcases hmul _ b2.1 b2.2 with e | ⟨k, e⟩ <;> rw [e]
    · simp [Fl.exact, Fl.add, Fl.mul, half, Fl.infMul]
    · rw [hadd]; simp [Fl.exact, Fl.mul, half]

theorem polyValue_spec {pw : Fl K → Fl K → Fl K} (hp : PowLaws pw) {a b y eta r : K} (hab : a < b) (h1 : a ≤ y)
    (h2 : y ≤ b) (he : -1 ≤ eta) (hr : 0 ≤ r) (hr1 : r ≤ 1) :
    polyValue pw (Fl.exact K) (.fin y) (.fin a) (.fin b) (.fin eta) (.fin r) ≠ .nan := by
  have hw : 0 < b - a := by linarith
  have hsub : ∀ x y : K, (Fl.exact K).sub (.fin x) (.fin y) = .fin (x - y) := by
    intro x y; simp [Fl.exact, Fl.sub, Fl.neg, Fl.add, sub_eq_add_neg]
  have hadd : ∀ x y : K, (Fl.exact K).add (.fin x) (.fin y) = .fin (x + y) := by
    intro x y; simp [Fl.exact, Fl.add]
  have hmul : ∀ x y : K, (Fl.exact K).mul (.fin x) (.fin y) = .fin (x * y) := by
    intro x y; simp [Fl.exact, Fl.mul]
  have hdiv : ∀ x : K, (Fl.exact K).div (.fin x) (.fin (b - a)) = .fin (x / (b - a)) := by
    intro x; simp [Fl.exact, Fl.div, ne_of_gt hw]
  have hone : (Fl.exact K).one = .fin 1 := rfl
  have hexp : (Fl.exact K).div (.fin 1) (.fin (eta + 1)) ≠ .nan := by
    simp only [Fl.exact, Fl.div]
    split <;> simp
  have hpow : ∀ d : K, 0 ≤ d → d ≤ 1 → ∃ p, pw (.fin d) (.fin (eta + 1)) = .fin p ∧ 0 ≤ p ∧ p ≤ 1 := by
    intro d hd hd1
    exact between_cases (hp.nonneg _ _ (by simp) (by simp) (by simpa using hd)).2
      (hp.le_one _ _ (by simpa using hd) (by simpa using hd1) (by simp) (by simp; linarith))
  have hfin : ∀ q : Fl K, q = .pinf ∨ q = .ninf ∨ (∃ k, q = .fin k) →
      (Fl.exact K).add (.fin y) ((Fl.exact K).mul q (.fin (b - a))) ≠ .nan := by
    rintro q (rfl | rfl | ⟨k, rfl⟩)
    · simp [Fl.exact, Fl.mul, Fl.infMul, ne_of_gt hw, hw, Fl.add]
    · simp [Fl.exact, Fl.mul, Fl.infMul, ne_of_gt hw, hw, Fl.add]
    · simp [Fl.exact, Fl.mul, Fl.add]
  unfold polyValue
  simp only [hsub, hdiv, hone, hadd, half, two, hmul]
  apply hfin
  split
  · rename_i hlt
    have hlt : r < 1 / 2 := by simpa [Fl.lt] using hlt
    have d0 : 0 ≤ (y - a) / (b - a) := div_nonneg (by linarith) hw.le
    have d1 : (y - a) / (b - a) ≤ 1 := by rw [div_le_one hw]; linarith
    obtain ⟨p, hpe, hp0, hp1⟩ := hpow (1 - (y - a) / (b - a)) (by linarith) (by linarith)
    rw [hpe, hmul, hadd]
    obtain ⟨n1, n2⟩ := hp.nonneg (.fin (2 * r + (1 - 2 * r) * p)) _ (by simp) hexp
      (by
        have : 0 ≤ (1 - 2 * r) * p := mul_nonneg (by linarith) hp0
        simp; linarith)
    rcases nonneg_cases n1 n2 with e | ⟨k, e, -⟩ <;> rw [e]
    · left; simp [Fl.exact, Fl.sub, Fl.neg, Fl.add]
    · right; right; exact ⟨_, hsub _ _⟩
  · rename_i hlt
    have hlt : ¬ r < 1 / 2 := by simpa [Fl.lt] using hlt
    have d0 : 0 ≤ (b - y) / (b - a) := div_nonneg (by linarith) hw.le
    have d1 : (b - y) / (b - a) ≤ 1 := by rw [div_le_one hw]; linarith
    obtain ⟨p, hpe, hp0, hp1⟩ := hpow (1 - (b - y) / (b - a)) (by linarith) (by linarith)
    rw [hpe, hmul, hadd]
    obtain ⟨n1, n2⟩ := hp.nonneg (.fin (2 * (1 - r) + 2 * (r - 1 / 2) * p)) _ (by simp) hexp
      (by
        have : 0 ≤ 2 * (r - 1 / 2) * p := mul_nonneg (by linarith) hp0
        simp only [Fl.fin_le_fin]; linarith)
    rcases nonneg_cases n1 n2 with e | ⟨k, e, -⟩ <;> rw [e]
    · right; left; simp [Fl.exact, Fl.sub, Fl.neg, Fl.add]
    · right; right; exact ⟨_, hsub _ _⟩

/-! ## Loops -/

/-- every component of `x` (of length `n`) has the property `P` for its position -/
def AllAt (P : Nat → Fl K → Prop) (n : Nat) (x : List (Fl K)) : Prop :=
  x.length = n ∧ ∀ (i : Nat) (v : Fl K), x[i]? = some v → P i v

omit [Field K] [LinearOrder K] [IsStrictOrderedRing K] in
theorem allAt_set {P : Nat → Fl K → Prop} {n : Nat} {x : List (Fl K)} (h : AllAt P n x) {i : Nat} {v : Fl K}
    (hv : P i v) : AllAt P n (x.set i v) := by
  refine ⟨by simpa using h.1, ?_⟩
  intro j w hw
  rw [List.getElem?_set] at hw
  by_cases e : i = j
  · subst e
    rw [if_pos rfl] at hw
    split at hw <;> cases hw
    exact hv
  · rw [if_neg e] at hw
    exact h.2 j w hw

omit [Field K] [LinearOrder K] [IsStrictOrderedRing K] in
theorem allAt_get {P : Nat → Fl K → Prop} {n : Nat} {x : List (Fl K)} (h : AllAt P n x) {i : Nat} (hi : i < x.length) :
    P i x[i] := h.2 i _ (List.getElem?_eq_getElem hi)

theorem wp_sbxImpl {g : Gen K σ} {rep : K → Prop} (hg : g.Lawful rep) {pw : Fl K → Fl K → Fl K} {op : Fl.Ops K}
    (P : Nat → Fl K → Prop) {p1 p2 lb ub : List (Fl K)} {nix n : Nat} {pCr eta : Fl K} (h1 : AllAt P n p1)
    (h2 : AllAt P n p2) (hl : lb.length = n) (hu : ub.length = n) (hnix : nix ≤ n)
    (hv : ∀ (i : Nat) (a b l u : Fl K) (r : K), i < n - nix → p1[i]? = some a → p2[i]? = some b → lb[i]? = some l →
      ub[i]? = some u → 0 ≤ r → r ≤ 1 → Fl.gt (Fl.abs (op.sub a b)) tiny = true → Fl.eq l u = false →
      let y := if Fl.lt a b then (a, b) else (b, a)
      P i (clamp l u (sbxValues pw op l u y.1 y.2 eta (.fin r)).1) ∧
      P i (clamp l u (sbxValues pw op l u y.1 y.2 eta (.fin r)).2)) (s : σ) :
    Run.wp (sbxImpl g pw op p1 p2 lb ub nix pCr eta) (fun c _ => AllAt P n c.1 ∧ AllAt P n c.2)
      (fun _ _ => False) s := by
  have l1 := h1.1
  have l2 := h2.1
  unfold sbxImpl
  rw [Run.wp_bind]
  refine Gen.wp_draw01 hg ?_
  intro r s _ _
  rw [Run.wp_ite]
  refine ⟨fun _ => ?_, fun _ => ⟨h1, h2⟩⟩
  rw [Run.wp_bind]
  refine (Run.wp_range (fun _ (c : List (Fl K) × List (Fl K)) _ => AllAt P n c.1 ∧ AllAt P n c.2) _ _ s
    ⟨h1, h2⟩ ?_).mono ?_ (fun _ _ h => h)
  · rintro i c s hi ⟨hc1, hc2⟩
    have i1 : i < p1.length := by omega
    have i2 : i < p2.length := by omega
    have i3 : i < lb.length := by omega
    have i4 : i < ub.length := by omega
    have i5 : i < c.1.length := by rw [hc1.1]; omega
    have i6 : i < c.2.length := by rw [hc2.1]; omega
    unfold sbxGene
    rw [Run.wp_bind, Run.wp_lift_get i1, Run.wp_bind, Run.wp_lift_get i2, Run.wp_bind, Run.wp_lift_get i3, Run.wp_bind,
      Run.wp_lift_get i4, Run.wp_bind]
    refine Gen.wp_draw01 hg ?_
    intro r s _ _
    rw [Run.wp_ite]
    refine ⟨fun hc => ?_, fun _ => ⟨hc1, hc2⟩⟩
    simp only [Bool.and_eq_true, Bool.not_eq_true'] at hc
    simp only
    rw [Run.wp_bind]
    refine Gen.wp_draw01 hg ?_
    intro r s hr0 hr1
    have hP := hv i _ _ _ _ r (by omega) (List.getElem?_eq_getElem i1) (List.getElem?_eq_getElem i2)
      (List.getElem?_eq_getElem i3) (List.getElem?_eq_getElem i4) hr0 hr1 hc.1.2 hc.2
    simp only at hP
    rw [Run.wp_bind]
    refine Gen.wp_draw01 hg ?_
    intro r' s _ _
    rw [Run.wp_ite]
    constructor
    · intro _
      rw [Run.wp_bind, Run.wp_lift_set i5, Run.wp_bind, Run.wp_lift_set i6, Run.wp_pure]
      exact ⟨allAt_set hc1 hP.1, allAt_set hc2 hP.2⟩
    · intro _
      rw [Run.wp_bind, Run.wp_lift_set i5, Run.wp_bind, Run.wp_lift_set i6, Run.wp_pure]
      exact ⟨allAt_set hc1 hP.2, allAt_set hc2 hP.1⟩
  · rintro c s ⟨hc1, hc2⟩
    unfold sbxInteger
    rw [Run.wp_ite]
    refine ⟨fun hn => ?_, fun _ => ⟨hc1, hc2⟩⟩
    rw [Run.wp_bind]
    refine Gen.wp_drawNat hg (by omega) ?_
    intro s1 s hs1 hs1'
    rw [Run.wp_bind]
    refine Gen.wp_drawNat hg (by omega) ?_
    intro s2 s hs2 hs2'
    simp only
    have hsw : ∃ q1 q2, (if s1 > s2 then (s2, s1) else (s1, s2)) = (q1, q2) ∧ q2 < n := by
      split
      · exact ⟨_, _, rfl, by omega⟩
      · exact ⟨_, _, rfl, by omega⟩
    obtain ⟨q1, q2, e, hq⟩ := hsw
    rw [e]
    obtain ⟨c', e', hc'⟩ : ((List.range' q1 (q2 + 1 - q1)).foldlM (swapGene p1 p2) c).Sat
        (fun c => AllAt P n c.1 ∧ AllAt P n c.2) := by
      refine Outcome.foldlM_sat (fun _ (c : List (Fl K) × List (Fl K)) => AllAt P n c.1 ∧ AllAt P n c.2)
        (List.range' q1 (q2 + 1 - q1)) [] c ⟨hc1, hc2⟩ ?_
      rintro p j q c hlist ⟨hc1, hc2⟩
      have hj : j ∈ List.range' q1 (q2 + 1 - q1) := by rw [hlist]; simp
      rw [List.mem_range'_1] at hj
      unfold swapGene
      have j1 : j < p1.length := by omega
      have j2 : j < p2.length := by omega
      rw [Outcome.get_of_lt j1, Outcome.get_of_lt j2]
      simp only [Outcome.bind_ok]
      rw [Outcome.set_of_lt (by rw [hc1.1]; omega), Outcome.set_of_lt (by rw [hc2.1]; omega)]
      simp only [Outcome.bind_ok, Outcome.sat_ok]
      exact ⟨allAt_set hc1 (allAt_get h2 j2), allAt_set hc2 (allAt_get h1 j1)⟩
    simp only
    rw [e', Run.wp_lift_ok]
    exact hc'

/-! ## C50 -/

/-- What `sbx_crossover` demands. -/
structure ValidSbx (p1 p2 lb ub : List (Fl K)) (nix : Nat) (pCr eta : Fl K) : Prop where
  bounds : SaneBounds lb ub nix
  finite : ∀ b ∈ lb ++ ub, b.isFinite = true
  len : p1.length = p2.length
  lenB : p1.length = lb.length
  prob : pCr.isFinite = true
  index : eta.isFinite = true

/-- What `polynomial_mutation` demands. -/
structure ValidPoly (x lb ub : List (Fl K)) (nix : Nat) (pM eta : Fl K) : Prop where
  bounds : SaneBounds lb ub nix
  finite : ∀ b ∈ lb ++ ub, b.isFinite = true
  len : x.length = lb.length
  prob : pM.isFinite = true
  index : eta.isFinite = true

variable [FloorRing K]

theorem chk_bounds (lb ub : List (Fl K)) (nix : Nat) : Chk (checkBounds lb ub nix) (SaneBounds lb ub nix) := by
  have := C19_bounds lb ub nix
  by_cases h : SaneBounds lb ub nix
  · exact Or.inl ⟨this.1.mpr h, h⟩
  · exact Or.inr ⟨this.2.mpr h, h⟩

omit [Field K] [LinearOrder K] [IsStrictOrderedRing K] [FloorRing K] in
theorem chk_finite {lb ub : List (Fl K)} (h : lb.length = ub.length) :
    Chk ((List.range lb.length).forM (checkFiniteAt lb ub)) (∀ b ∈ lb ++ ub, b.isFinite = true) := by
  refine Chk.congr (Chk.forM (P := fun i => ∀ l u : Fl K, lb[i]? = some l → ub[i]? = some u →
    l.isFinite = true ∧ u.isFinite = true) ?_) ?_
  · intro i hi
    rw [List.mem_range] at hi
    unfold checkFiniteAt
    rw [Outcome.get_of_lt hi, Outcome.get_of_lt (h ▸ hi : i < ub.length)]
    simp only [Outcome.bind_ok]
    refine Chk.congr (Chk.ite_throw (fun _ => Chk.pass)) ?_
    rw [List.getElem?_eq_getElem hi, List.getElem?_eq_getElem (h ▸ hi : i < ub.length)]
    simp only [Option.some.injEq]
    constructor
    · rintro ⟨h, -⟩ l u rfl rfl; simpa using h
    · intro h; simpa using h _ _ rfl rfl
  · constructor
    · intro hh b hb
      rw [List.mem_append] at hb
      rcases hb with hb | hb
      · obtain ⟨i, hi, rfl⟩ := List.getElem_of_mem hb
        exact (hh i (List.mem_range.mpr hi) _ _ (List.getElem?_eq_getElem hi)
          (List.getElem?_eq_getElem (h ▸ hi : i < ub.length))).1
      · obtain ⟨i, hi, rfl⟩ := List.getElem_of_mem hb
        have hi' : i < lb.length := by omega
        exact (hh i (List.mem_range.mpr hi') _ _ (List.getElem?_eq_getElem hi')
          (List.getElem?_eq_getElem hi)).2
    · intro hh i hi l u hl hu
      exact ⟨hh l (List.mem_append.mpr (Or.inl (List.mem_of_getElem? hl))),
        hh u (List.mem_append.mpr (Or.inr (List.mem_of_getElem? hu)))⟩

theorem chk_sbx (p1 p2 lb ub : List (Fl K)) (nix : Nat) (pCr eta : Fl K) :
    Chk (sbxChecks p1 p2 lb ub nix pCr eta) (ValidSbx p1 p2 lb ub nix pCr eta) := by
  unfold sbxChecks
  refine Chk.congr (Chk.seq (chk_bounds lb ub nix) (fun hb => Chk.ite_throw (fun _ => Chk.ite_throw (fun _ =>
    Chk.seq (chk_finite hb.len) (fun _ => Chk.ite_throw (fun _ => Chk.ite_throw (fun _ => Chk.pass))))))) ?_
  constructor
  · rintro ⟨a, b, c, d, e, f, -⟩
    exact ⟨a, d, by simpa using b, by simpa using c, by simpa using e, by simpa using f⟩
  · rintro ⟨a, b, c, d, e, f⟩
    exact ⟨a, by simpa using c, by simpa using d, b, by simpa using e, by simpa using f, trivial⟩

theorem chk_poly (x lb ub : List (Fl K)) (nix : Nat) (pM eta : Fl K) :
    Chk (polyChecks x lb ub nix pM eta) (ValidPoly x lb ub nix pM eta) := by
  unfold polyChecks
  refine Chk.congr (Chk.seq (chk_bounds lb ub nix) (fun hb => Chk.ite_throw (fun _ =>
    Chk.seq (chk_finite hb.len) (fun _ => Chk.ite_throw (fun _ => Chk.ite_throw (fun _ => Chk.pass)))))) ?_
  constructor
  · rintro ⟨a, c, d, e, f, -⟩
    exact ⟨a, d, by simpa using c, by simpa using e, by simpa using f⟩
  · rintro ⟨a, b, c, e, f⟩
    exact ⟨a, by simpa using c, b, by simpa using e, by simpa using f, trivial⟩

/-- C50 (crossover). For any arguments, engine, arithmetic and `pow`: `std::invalid_argument` exactly when the arguments
are not valid, otherwise two children of the right length. -/
theorem C50_sbx {g : Gen K σ} {rep : K → Prop} (hg : g.Lawful rep) (pw : Fl K → Fl K → Fl K) (op : Fl.Ops K)
    (p1 p2 lb ub : List (Fl K)) (nix : Nat) (pCr eta : Fl K) (s : σ) :
    Run.wp (sbxCrossover g pw op p1 p2 lb ub nix pCr eta)
      (fun c _ => ValidSbx p1 p2 lb ub nix pCr eta ∧ c.1.length = lb.length ∧ c.2.length = lb.length)
      (fun e _ => e = .invalidArgument ∧ ¬ ValidSbx p1 p2 lb ub nix pCr eta) s := by
  unfold sbxCrossover
  rw [Run.wp_bind]
  rcases chk_sbx p1 p2 lb ub nix pCr eta with ⟨h, hv⟩ | ⟨h, hv⟩
  · rw [h, Run.wp_lift_ok]
    have := hv.len
    have := hv.lenB
    refine (wp_sbxImpl hg (fun _ _ => True) (n := lb.length) ⟨hv.lenB, fun _ _ _ => trivial⟩
      ⟨by omega, fun _ _ _ => trivial⟩ rfl hv.bounds.len.symm hv.bounds.nixLe
      (fun _ _ _ _ _ _ _ _ _ _ _ _ _ _ _ => ⟨trivial, trivial⟩) s).mono ?_ (fun _ _ h => h.elim)
    rintro c _ ⟨h1, h2⟩
    exact ⟨hv, h1.1, h2.1⟩
  · rw [h, Run.wp_lift_throws]
    exact ⟨rfl, hv⟩

theorem wp_polyImpl {g : Gen K σ} {rep : K → Prop} (hg : g.Lawful rep) {pw : Fl K → Fl K → Fl K} {op : Fl.Ops K}
    (P : Nat → Fl K → Prop) {x lb ub : List (Fl K)} {nix : Nat} {pM eta : Fl K} (h : AllAt P lb.length x)
    (hs : SaneBounds lb ub nix) (hr : Reps rep lb ub)
    (hv : ∀ (i : Nat) (y l u : Fl K) (r : K), i < lb.length - nix → P i y → lb[i]? = some l →
      ub[i]? = some u → 0 ≤ r → r ≤ 1 → Fl.eq l u = false → P i (clamp l u (polyValue pw op y l u eta (.fin r))))
    (hi : ∀ (i : Nat) (l u v : Fl K), lb.length - nix ≤ i → lb[i]? = some l → ub[i]? = some u →
      InRange l u True v → P i v) (s : σ) :
    Run.wp (polyImpl g pw op x lb ub nix pM eta) (fun c _ => AllAt P lb.length c)
      (fun e _ => e = .invalidArgument ∧ ∃ i, lb.length - nix ≤ i ∧ i < lb.length ∧ ¬ Drawable op lb ub nix i) s := by
  have hlen := hs.len
  have hnix := hs.nixLe
  have hx := h.1
  unfold polyImpl
  simp only
  rw [Run.wp_bind]
  refine (Run.wp_range (fun _ c _ => AllAt P lb.length c) _ _ s h ?_).mono ?_ (fun _ _ h => h)
  · intro j c s hj hc
    have j1 : j < lb.length := by omega
    have j2 : j < ub.length := by omega
    have j3 : j < c.length := by rw [hc.1]; omega
    unfold polyGene
    rw [Run.wp_bind, Run.wp_lift_get j1, Run.wp_bind, Run.wp_lift_get j2, Run.wp_bind, Run.wp_lift_get j3, Run.wp_bind]
    refine Gen.wp_draw01 hg ?_
    intro r s _ _
    rw [Run.wp_ite]
    refine ⟨fun hcond => ?_, fun _ => hc⟩
    simp only [Bool.and_eq_true, Bool.not_eq_true'] at hcond
    rw [Run.wp_bind]
    refine Gen.wp_draw01 hg ?_
    intro r' s h0 h1
    rw [Run.wp_lift_set j3]
    exact allAt_set hc (hv j _ _ _ r' (by omega) (allAt_get hc j3) (List.getElem?_eq_getElem j1)
      (List.getElem?_eq_getElem j2) h0 h1 hcond.2)
  · intro c s hc
    refine Run.wp.mono (Run.wp_range' (fun _ c _ => AllAt P lb.length c) _ _ _ s hc ?_) (fun _ _ h => h)
      (fun _ _ h => h)
    intro j c s hj hj' hc
    have j1 : j < lb.length := by omega
    have j2 : j < ub.length := by omega
    have j3 : j < c.length := by rw [hc.1]; omega
    unfold polyInt
    rw [Run.wp_bind, Run.wp_lift_get j1, Run.wp_bind, Run.wp_lift_get j2, Run.wp_bind]
    refine Gen.wp_draw01 hg ?_
    intro r s _ _
    rw [Run.wp_ite]
    refine ⟨fun _ => ?_, fun _ => hc⟩
    rw [Run.wp_bind]
    obtain ⟨n1, n2, hle⟩ := hs.ordered j _ _ (List.getElem?_eq_getElem j1) (List.getElem?_eq_getElem j2)
    refine (wp_uniformIntegral hg true true hle n2 n1
        (fun a h => hs.intL j a (by omega) (by rw [List.getElem?_eq_getElem j1, h]))
        (fun a h => hs.intU j a (by omega) (by rw [List.getElem?_eq_getElem j2, h]))
        (fun a h => hr a (Or.inl (h ▸ List.getElem_mem j1)))
        (fun a h => hr a (Or.inr (h ▸ List.getElem_mem j2))) s).mono ?_ ?_
    · rintro v s ⟨-, v1, v2, v3⟩
      rw [Run.wp_lift_set j3]
      exact allAt_set hc (hi j _ _ _ (by omega) (List.getElem?_eq_getElem j1) (List.getElem?_eq_getElem j2)
        ⟨v1, v2, fun _ => v3⟩)
    · rintro e s ⟨he, hf⟩
      refine ⟨he, j, by omega, by omega, fun hd => hf ?_⟩
      obtain ⟨d1, d2, -, d4⟩ := hd _ _ (List.getElem?_eq_getElem j1) (List.getElem?_eq_getElem j2)
      exact ⟨d1, d2, d4 (by omega)⟩

/-- C50 (mutation). For any arguments, engine, arithmetic and `pow`: arguments that are not valid are answered with
`std::invalid_argument`; for valid ones the result has the right length, and an exception (again
`std::invalid_argument`) is possible only if the bounds of an integer component do not fit in `long long`. -/
theorem C50_mutation {g : Gen K σ} {rep : K → Prop} (hg : g.Lawful rep) (pw : Fl K → Fl K → Fl K) (op : Fl.Ops K)
    (x lb ub : List (Fl K)) (nix : Nat) (pM eta : Fl K) (hr : Reps rep lb ub) (s : σ) :
    Run.wp (polynomialMutation g pw op x lb ub nix pM eta)
      (fun c _ => ValidPoly x lb ub nix pM eta ∧ c.length = lb.length)
      (fun e _ => e = .invalidArgument ∧ (¬ ValidPoly x lb ub nix pM eta ∨
        ∃ i, lb.length - nix ≤ i ∧ i < lb.length ∧ ¬ Drawable op lb ub nix i)) s := by
  unfold polynomialMutation
  rw [Run.wp_bind]
  rcases chk_poly x lb ub nix pM eta with ⟨h, hv⟩ | ⟨h, hv⟩
  · rw [h, Run.wp_lift_ok]
    refine (wp_polyImpl hg (fun _ _ => True) (lb := lb) ⟨hv.len, fun _ _ _ => trivial⟩ hv.bounds hr
      (fun _ _ _ _ _ _ _ _ _ _ _ _ => trivial) (fun _ _ _ _ _ _ _ _ => trivial) s).mono ?_ ?_
    · intro c _ hc; exact ⟨hv, hc.1⟩
    · rintro e _ ⟨he, h⟩; exact ⟨he, Or.inr h⟩
  · rw [h, Run.wp_lift_throws]
    exact ⟨rfl, Or.inl hv⟩

example : ValidSbx [Fl.fin (1 : ℚ), .fin 2] [.fin 0, .fin 3] [.fin 0, .fin 1] [.fin 2, .fin 5] 1 (.fin (9 / 10))
    (.fin 10) := (chk_sbx _ _ _ _ _ _ _).ok_iff.mp (by decide +kernel)

/-! ## C49 -/

omit [IsStrictOrderedRing K] [FloorRing K] in
theorem inBox_iff {lb ub : List (Fl K)} {nix : Nat} {x : List (Fl K)} :
    InBox lb ub nix x ↔ AllAt (fun i v => ∀ l u : Fl K, lb[i]? = some l → ub[i]? = some u →
      InRange l u (lb.length - nix ≤ i) v) lb.length x := by
  unfold InBox AllAt
  exact and_congr Iff.rfl ⟨fun h i v hv l u hl hu => h i l u v hl hu hv, fun h i l u v hl hu hv => h i v hv l u hl hu⟩

/-- C49 (crossover). Parents inside the bounds, distribution index not below -1 (the algorithms of the library use
[1, 100]), any crossover probability, any engine and stream: the children are inside the bounds and their integer part
is integral. Exact arithmetic; of `pow` only `PowLaws` is used. -/
theorem C49_sbx {g : Gen K σ} {rep : K → Prop} (hg : g.Lawful rep) {pw : Fl K → Fl K → Fl K} (hp : PowLaws pw)
    (p1 p2 lb ub : List (Fl K)) (nix : Nat) (pCr : Fl K) (eta : K) (he : -1 ≤ eta) (h1 : InBox lb ub nix p1)
    (h2 : InBox lb ub nix p2) (s : σ) :
    Run.wp (sbxCrossover g pw (Fl.exact K) p1 p2 lb ub nix pCr (.fin eta))
      (fun c _ => InBox lb ub nix c.1 ∧ InBox lb ub nix c.2)
      (fun e _ => e = .invalidArgument ∧ ¬ ValidSbx p1 p2 lb ub nix pCr (.fin eta)) s := by
  unfold sbxCrossover
  rw [Run.wp_bind]
  rcases chk_sbx p1 p2 lb ub nix pCr (.fin eta) with ⟨h, hv⟩ | ⟨h, hv⟩
  swap
  · rw [h, Run.wp_lift_throws]
    exact ⟨rfl, hv⟩
  rw [h, Run.wp_lift_ok]
  simp only [inBox_iff] at h1 h2 ⊢
  refine (wp_sbxImpl hg _ h1 h2 rfl hv.bounds.len.symm hv.bounds.nixLe ?_ s).mono (fun _ _ h => h)
    (fun _ _ h => h.elim)
  intro i a b l u r hi ha hb hl hu hr0 hr1 hgt hne
  obtain ⟨n1, n2, hle⟩ := hv.bounds.ordered i l u hl hu
  obtain ⟨l', rfl⟩ := fin_of_finite (hv.finite l (List.mem_append.mpr (Or.inl (List.mem_of_getElem? hl))))
  obtain ⟨u', rfl⟩ := fin_of_finite (hv.finite u (List.mem_append.mpr (Or.inr (List.mem_of_getElem? hu))))
  obtain ⟨a', rfl, ha1, ha2⟩ := between_cases (h1.2 i a ha _ _ hl hu).1 (h1.2 i a ha _ _ hl hu).2.1
  obtain ⟨b', rfl, hb1, hb2⟩ := between_cases (h2.2 i b hb _ _ hl hu).1 (h2.2 i b hb _ _ hl hu).2.1
  have hab : a' ≠ b' := by
    rintro rfl
    simp [Fl.gt, Fl.exact, Fl.sub, Fl.neg, Fl.add, Fl.abs, Fl.lt, tiny] at hgt
    exact absurd hgt (not_lt.mpr (by positivity))
  have hy : ∃ y1 y2, (if Fl.lt (Fl.fin a') (.fin b') then (Fl.fin a', Fl.fin b') else (.fin b', .fin a')) =
      (Fl.fin y1, Fl.fin y2) ∧ l' ≤ y1 ∧ y1 < y2 ∧ y2 ≤ u' := by
    by_cases hlt : a' < b'
    · exact ⟨a', b', by simp [Fl.lt, hlt], ha1, hlt, hb2⟩
    · exact ⟨b', a', by simp [Fl.lt, hlt], hb1, lt_of_le_of_ne (not_lt.mp hlt) (Ne.symm hab), ha2⟩
  obtain ⟨y1, y2, e, q1, q2, q3⟩ := hy
  simp only [e]
  have hval := sbxValues_spec hp q1 q2 q3 he hr0 hr1
  have c1 := clamp_spec hle n2 hval.1
  have c2 := clamp_spec hle n2 hval.2
  constructor <;> intro l u hl' hu' <;> rw [hl] at hl' <;> rw [hu] at hu' <;> cases hl' <;> cases hu'
  · exact ⟨c1.1, c1.2, fun h => absurd h (by omega)⟩
  · exact ⟨c2.1, c2.2, fun h => absurd h (by omega)⟩

/-- C49 (mutation). A vector inside the bounds, distribution index not below -1, any mutation probability, any engine
and stream: the result is inside the bounds and its integer part integral. -/
theorem C49_mutation {g : Gen K σ} {rep : K → Prop} (hg : g.Lawful rep) {pw : Fl K → Fl K → Fl K} (hp : PowLaws pw)
    (x lb ub : List (Fl K)) (nix : Nat) (pM : Fl K) (eta : K) (he : -1 ≤ eta) (hr : Reps rep lb ub)
    (h : InBox lb ub nix x) (s : σ) :
    Run.wp (polynomialMutation g pw (Fl.exact K) x lb ub nix pM (.fin eta)) (fun c _ => InBox lb ub nix c)
      (fun e _ => e = .invalidArgument ∧ (¬ ValidPoly x lb ub nix pM (.fin eta) ∨
        ∃ i, lb.length - nix ≤ i ∧ i < lb.length ∧ ¬ Drawable (Fl.exact K) lb ub nix i)) s := by
  unfold polynomialMutation
  rw [Run.wp_bind]
  rcases chk_poly x lb ub nix pM (.fin eta) with ⟨hc, hv⟩ | ⟨hc, hv⟩
  swap
  · rw [hc, Run.wp_lift_throws]
    exact ⟨rfl, Or.inl hv⟩
  rw [hc, Run.wp_lift_ok]
  simp only [inBox_iff] at h ⊢
  refine (wp_polyImpl hg _ h hv.bounds hr ?_ ?_ s).mono (fun _ _ h => h) ?_
  · intro i y l u r hi hy hl hu hr0 hr1 hne
    obtain ⟨n1, n2, hle⟩ := hv.bounds.ordered i l u hl hu
    obtain ⟨l', rfl⟩ := fin_of_finite (hv.finite l (List.mem_append.mpr (Or.inl (List.mem_of_getElem? hl))))
    obtain ⟨u', rfl⟩ := fin_of_finite (hv.finite u (List.mem_append.mpr (Or.inr (List.mem_of_getElem? hu))))
    obtain ⟨y', rfl, hy1, hy2⟩ := between_cases (hy _ _ hl hu).1 (hy _ _ hl hu).2.1
    have hlt : l' < u' := by
      have : l' ≠ u' := by rintro rfl; simp [Fl.eq] at hne
      exact lt_of_le_of_ne (by simpa using hle) this
    have c1 := clamp_spec hle n2 (polyValue_spec hp hlt hy1 hy2 he hr0 hr1)
    intro l u hl' hu'
    rw [hl] at hl'; rw [hu] at hu'; cases hl'; cases hu'
    exact ⟨c1.1, c1.2, fun h => absurd h (by omega)⟩
  · intro i l u v hi hl hu hv l' u' hl' hu'
    rw [hl] at hl'; rw [hu] at hu'; cases hl'; cases hu'
    exact ⟨hv.1, hv.2.1, fun _ => hv.2.2 trivial⟩
  · rintro e _ ⟨he, h⟩
    exact ⟨he, Or.inr h⟩

/-- A power function for examples: exact for the exponents 1 and -1. -/
def demoPow (x y : Fl ℚ) : Fl ℚ :=
  if y = .fin 1 then x else if y = .fin (-1) then (Fl.exact ℚ).div (.fin 1) x else .fin 1

example : (sbxCrossover demoGen demoPow (Fl.exact ℚ) [.fin 1, .fin 2] [.fin 0, .fin 3] [.fin 0, .fin 1]
    [.fin 2, .fin 5] 1 (.fin (9 / 10)) (.fin 0) [0, 0, 3 / 4, 0, 0, 1]).1 =
    .ok ([.fin (1 / 8), .fin 3], [.fin (7 / 6), .fin 2]) := by decide +kernel

example : InBox [Fl.fin (0 : ℚ), .fin 1] [.fin 2, .fin 5] 1 [.fin 1, .fin 2] := by
  refine ⟨rfl, ?_⟩
  intro i l u v hl hu hv
  match i with
  | 0 => simp at hl hu hv; subst hl hu hv; refine ⟨?_, ?_, ?_⟩ <;> simp
  | 1 => simp at hl hu hv; subst hl hu hv; exact ⟨by simp, by simp; norm_num, fun _ => ⟨2, by norm_num⟩⟩
  | i + 2 => simp at hl

/-- A distribution index below -1, which `polynomial_mutation` accepts, can produce NaN: at the lower bound with the
random number 1/2 the value is `0 * pow(0, eta + 1) = 0 * inf`. (`pow` as far as it matters here: infinite for a zero
base and exponent -1; NaN for NaN.) -/
theorem C49_mutation_nan (pw : Fl ℚ → Fl ℚ → Fl ℚ) (h1 : pw (.fin 0) (.fin (-1)) = .pinf)
    (h2 : pw .nan (.fin (-1)) = .nan) :
    (polynomialMutation demoGen pw (Fl.exact ℚ) [.fin 0] [.fin 0] [.fin 1] 0 (.fin 1) (.fin (-2)) [0, 1 / 2]).1 =
      .ok [.nan] := by
  have hc : polyChecks [Fl.fin (0 : ℚ)] [.fin 0] [.fin 1] 0 (.fin 1) (.fin (-2)) = .ok () := by decide +kernel
  have hv : polyValue pw (Fl.exact ℚ) (.fin 0) (.fin 0) (.fin 1) (.fin (-2)) (.fin (1 / 2)) = .nan := by
    have e1 : (Fl.exact ℚ).add (.fin (-2)) (Fl.exact ℚ).one = .fin (-1) := by decide +kernel
    have e2 : (Fl.exact ℚ).div (Fl.exact ℚ).one (.fin (-1)) = .fin (-1) := by decide +kernel
    have e3 : (Fl.exact ℚ).sub (Fl.exact ℚ).one ((Fl.exact ℚ).div ((Fl.exact ℚ).sub (.fin 1) (.fin 0))
      ((Fl.exact ℚ).sub (.fin 1) (.fin 0))) = .fin 0 := by decide +kernel
    have e4 : Fl.lt (Fl.fin (1 / 2 : ℚ)) half = false := by decide +kernel
    have e5 : (Fl.exact ℚ).mul ((Fl.exact ℚ).mul two ((Fl.exact ℚ).sub (.fin (1 / 2)) half)) .pinf = .nan := by
      decide +kernel
    unfold polyValue
    simp only [e1, e2, e3, e4, h1, e5, Bool.false_eq_true, if_false]
    have e6 : ∀ a : Fl ℚ, (Fl.exact ℚ).add a .nan = .nan := by intro a; cases a <;> rfl
    have e7 : ∀ a : Fl ℚ, (Fl.exact ℚ).sub a .nan = .nan := by intro a; cases a <;> rfl
    have e8 : ∀ a : Fl ℚ, (Fl.exact ℚ).mul .nan a = .nan := by intro a; cases a <;> rfl
    rw [e6, h2, e7, e8, e6]
  have hcl : clamp (Fl.fin (0 : ℚ)) (.fin 1) .nan = .nan := by decide +kernel
  unfold polynomialMutation
  rw [hc]
  have d1 : demoGen.draw01 [0, 1 / 2] = (.ok (.fin 0), [1 / 2]) := by decide +kernel
  have d2 : demoGen.draw01 [1 / 2] = (.ok (.fin (1 / 2)), []) := by decide +kernel
  have d3 : (Fl.lt (Fl.fin (0 : ℚ)) (.fin 1) && !(Fl.eq (Fl.fin (0 : ℚ)) (.fin 1))) = true := by decide +kernel
  have key : polyGene demoGen pw (Fl.exact ℚ) [.fin 0] [.fin 1] (.fin 1) (.fin (-2)) [.fin 0] 0 [0, 1 / 2] =
      (.ok [.nan], []) := by
    simp only [polyGene, Run.lift, Bind.bind, Outcome.get, Outcome.set, Run.bind, List.getElem?_cons_zero, d1,
      List.length_singleton, Nat.zero_lt_one, List.set_cons_zero, if_true, d3, d2, hv, hcl]
  simp only [polyImpl, Run.lift, Bind.bind, Run.bind, Pure.pure, List.length_singleton, Nat.sub_zero, List.range_one,
    List.foldlM_cons, List.foldlM_nil, Nat.sub_self, List.range'_zero, key]

end Verif.Props
