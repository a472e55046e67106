import Verif.Proof.WfgFit
import Verif.Props.Dtlz

/-!
# Range of the objectives of the WFG problems, their distance from the front and the points on it
-/

set_option autoImplicit false

namespace Verif.Wfg

open Verif Verif.Spec Verif.Analytic Verif.Dtlz Finset

/-- the blocks reduced by `r_nonsep` have one element or an even number of them -/
def EvenBlocks (p : Wfg) : Prop :=
  p.id = 6 ∨ p.id = 9 → (p.k / (p.fdim - 1) = 1 ∨ p.k / (p.fdim - 1) % 2 = 0) ∧ (p.dim - p.k = 1 ∨ (p.dim - p.k) % 2 = 0)

theorem cTrans_range {p : Wfg} (hp : Made p) {z : Nat → ℝ} (hz : Unit' p.dim z) : Unit' p.dim (cTrans p.id p.dim p.k z) := by
  have hk := hp.lt
  intro i hi
  by_cases h8 : p.id = 8
  · rw [cTrans, if_pos h8]
    split_ifs
    · exact hz i hi
    · exact hLinear_range (first8_range hp.pos hz i hi)
  · rw [trans_ne8 h8]
    unfold Huband.transition
    split
    · have h : In01 (if i < p.k then z i else Huband.bFlat 0.8 0.75 0.85 (Huband.sLinear 0.35 (z i))) := by
        split_ifs
        · exact hz i hi
        · exact hFlat_range (hLinear_range (hz i hi))
      exact ⟨Real.rpow_nonneg h.1 _, Real.rpow_le_one h.1 h.2 (by norm_num)⟩
    · exact hMulti_range (by norm_num) (hz i hi)
    · exact hDecept_range (hz i hi)
    · split_ifs
      · exact later_range hz (by omega)
      · exact hLinear_range (hz i hi)
    · exact absurd ‹p.id = 8› h8
    · split_ifs
      · exact hDecept_range (later_range hz (by omega))
      · exact hMulti_range (by norm_num) (later_range hz (by omega))
      · exact hMulti_range (by norm_num) (hz i hi)
    · split_ifs
      · exact hz i hi
      · exact hLinear_range (hz i hi)

theorem cRed_range {p : Wfg} {y : Nat → ℝ} {lo len : Nat} (hl : 0 < len) (hy : ∀ j, j < len → In01 (y (lo + j)))
    (hev : p.id = 6 ∨ p.id = 9 → len = 1 ∨ len % 2 = 0) (h23 : p.id = 2 ∨ p.id = 3 → p.k ≤ lo → lo = p.k ∧ len % 2 = 0) :
    In01 (cRed p.id p.k y lo len) := by
  unfold cRed
  split_ifs with h
  · rw [cNonsep_eq (hev h) hl]; exact nonsep_range hl hy
  · have hm := mean_range hl hy
    have hpair : p.id = 2 ∨ p.id = 3 → ¬ lo < p.k →
        In01 (Huband.mean (fun j => Huband.nonsep 2 y (lo + 2 * (j - lo)) 2) lo (len / 2)) := by
      intro h23' hlo
      obtain ⟨-, he⟩ := h23 h23' (by omega)
      refine mean_range (by omega) fun j hj => nonsep_range (by omega) fun i hi => ?_
      have := hy (2 * j + i) (by omega)
      rwa [show lo + 2 * (lo + j - lo) + i = lo + (2 * j + i) by omega]
    unfold Huband.reduction
    split
    · exact wMean_range hl (fun j _ => by positivity) hy
    · omega
    · omega
    · split_ifs with hlo
      · exact hm
      · exact hpair (Or.inl ‹_›) hlo
    · split_ifs with hlo
      · exact hm
      · exact hpair (Or.inr ‹_›) hlo
    · exact hm

theorem cFinal_range {p : Wfg} (hp : Made p) (he : EvenBlocks p) {z : Nat → ℝ} (hz : Unit' p.dim z) (m : Nat) :
    In01 (cFinal p.id p.dim p.fdim p.k z m) := by
  have hk := hp.lt
  have ht := cTrans_range hp hz
  unfold cFinal
  split_ifs with h
  · have hh := hp.hi h
    have hq := hp.q_pos
    exact cRed_range hq (fun j hj => ht _ (by omega)) (fun e => (he e).1) (fun _ h2 => by omega)
  · exact cRed_range (by omega) (fun j hj => ht _ (by omega)) (fun e => (he e).2) (fun e _ => ⟨rfl, hp.even e⟩)

/-- the distance from the front is not negative, and zero exactly if the distance related values are -/
theorem dist_nonneg {p : Wfg} (hp : Made p) {z : Nat → ℝ} (hz : Unit' p.dim z) :
    0 ≤ cFinal p.id p.dim p.fdim p.k z (p.fdim - 1) := by
  have hk := hp.lt
  have ht := cTrans_range hp hz
  by_cases h : p.id = 6 ∨ p.id = 9
  · rw [cFinal, if_neg (by omega), cRed, if_pos h]
    exact cNonsep_nonneg (by omega) (fun j hj => (ht _ (by omega)).1)
  · exact (cFinal_range hp (fun e => absurd e h) hz _).1

theorem dist_zero {p : Wfg} (hp : Made p) {z : Nat → ℝ} (hz : Unit' p.dim z) :
    cFinal p.id p.dim p.fdim p.k z (p.fdim - 1) = 0 ↔ ∀ i, p.k ≤ i → i < p.dim → cTrans p.id p.dim p.k z i = 0 := by
  have hk := hp.lt
  have ht := cTrans_range hp hz
  have h0 : ∀ j, j < p.dim - p.k → 0 ≤ cTrans p.id p.dim p.k z (p.k + j) := fun j hj => (ht _ (by omega)).1
  have shift : (∀ j, j < p.dim - p.k → cTrans p.id p.dim p.k z (p.k + j) = 0) ↔
      ∀ i, p.k ≤ i → i < p.dim → cTrans p.id p.dim p.k z i = 0 := by
    constructor
    · intro h i h1 h2
      have := h (i - p.k) (by omega)
      rwa [show p.k + (i - p.k) = i by omega] at this
    · intro h j hj; exact h _ (by omega) (by omega)
  rw [← shift, cFinal, if_neg (by omega), cRed]
  split_ifs with h
  · exact cNonsep_zero (by omega) h0
  · have hm := mean_zero (y := cTrans p.id p.dim p.k z) (lo := p.k) (len := p.dim - p.k) (by omega) h0
    have hpair : p.id = 2 ∨ p.id = 3 →
        (Huband.mean (fun j => Huband.nonsep 2 (cTrans p.id p.dim p.k z) (p.k + 2 * (j - p.k)) 2) p.k ((p.dim - p.k) / 2) = 0 ↔
        ∀ j, j < p.dim - p.k → cTrans p.id p.dim p.k z (p.k + j) = 0) := by
      intro h23
      have hev := hp.even h23
      have hnn : ∀ j, j < (p.dim - p.k) / 2 → ∀ i, i < 2 → 0 ≤ cTrans p.id p.dim p.k z (p.k + 2 * (p.k + j - p.k) + i) := by
        intro j hj i hi
        have := h0 (2 * j + i) (by omega)
        rwa [show p.k + 2 * (p.k + j - p.k) + i = p.k + (2 * j + i) by omega]
      rw [mean_zero (by omega) (fun j hj => by
        rw [nonsep_eq (by omega)]
        exact div_nonneg (spread_nonneg (hnn j hj)) (half_div_pos (by omega)).le)]
      constructor
      · intro e j hj
        have e1 := (nonsep_zero (by omega) (hnn (j / 2) (by omega))).mp (e (j / 2) (by omega)) (j % 2) (by omega)
        rwa [show p.k + 2 * (p.k + j / 2 - p.k) + j % 2 = p.k + j by omega] at e1
      · intro e j hj
        refine (nonsep_zero (by omega) (hnn j hj)).mpr fun i hi => ?_
        rw [show p.k + 2 * (p.k + j - p.k) + i = p.k + (2 * j + i) by omega]
        exact e _ (by omega)
    unfold Huband.reduction
    split
    · exact wMean_zero (by omega) (fun j _ => by positivity) h0
    · omega
    · omega
    · rw [if_neg (by omega)]; exact hpair (Or.inl ‹_›)
    · rw [if_neg (by omega)]; exact hpair (Or.inr ‹_›)
    · exact hm

/-- WFG1 to WFG7: the distance related values are zero exactly at 0.35 -/
theorem cTrans_zero {p : Wfg} (h7 : p.id ≤ 7) {z : Nat → ℝ} {i : Nat} (hz : In01 (z i)) (hi : p.k ≤ i) :
    cTrans p.id p.dim p.k z i = 0 ↔ z i = 0.35 := by
  rw [trans_ne8 (by omega)]
  unfold Huband.transition
  split
  · rw [if_neg (by omega), Real.rpow_eq_zero (hFlat_range (hLinear_range hz)).1 (by norm_num), hFlat_zero (hLinear_range hz), hLinear_zero]
  · exact hMulti_zero (by norm_num)
  · exact hDecept_zero hz
  · rw [if_neg (by omega), hLinear_zero]
  · omega
  · omega
  · rw [if_neg (by omega), hLinear_zero]

/-! ## shape -/

theorem prodShape_wt (M : Nat) (c s : Nat → ℝ) {m : Nat} (hm : m < M) : Huband.prodShape M c s m = wt M c s m := by
  by_cases h : m = 0
  · subst h; rw [prod_first, wt, if_pos rfl]
  · rw [prod_later c s h, wt, if_neg h]

theorem prodShape_range {M : Nat} (hM : 2 ≤ M) {c s : Nat → ℝ} (hc : ∀ j, j < M - 1 → In01 (c j)) (hs : ∀ j, j < M - 1 → In01 (s j))
    {m : Nat} (hm : m < M) : In01 (Huband.prodShape M c s m) := by
  have hp : ∀ n, n ≤ M - 1 → In01 (∏ j ∈ range n, c j) := fun n hn =>
    ⟨prod_nonneg fun j hj => (hc j (by have := mem_range.mp hj; omega)).1,
     prod_le_one (fun j hj => (hc j (by have := mem_range.mp hj; omega)).1) (fun j hj => (hc j (by have := mem_range.mp hj; omega)).2)⟩
  unfold Huband.prodShape
  split_ifs with h
  · rw [mul_one]; exact hp _ (by omega)
  · have h1 := hp (M - 1 - m) (by omega)
    have h2 := hs (M - 1 - m) (by omega)
    exact ⟨mul_nonneg h1.1 h2.1, mul_le_one₀ h1.2 h2.1 h2.2⟩

theorem angle_range {a : ℝ} (h : In01 a) : In01 (Real.sin (a * (Real.pi / 2))) ∧ In01 (Real.cos (a * (Real.pi / 2))) := by
  have hpi := Real.pi_pos
  obtain ⟨h0, h1⟩ := h
  have h2 : 0 ≤ a * (Real.pi / 2) := by positivity
  have h3 : a * (Real.pi / 2) ≤ Real.pi / 2 := by nlinarith
  exact ⟨⟨Real.sin_nonneg_of_nonneg_of_le_pi h2 (by linarith), Real.sin_le_one _⟩,
    ⟨Real.cos_nonneg_of_neg_pi_div_two_le_of_le (by linarith) h3, Real.cos_le_one _⟩⟩

theorem flip_range {a : ℝ} (h : In01 a) : In01 (1 - a) := ⟨by linarith [h.2], by linarith [h.1]⟩

theorem under_range {id M : Nat} {T : Nat → ℝ} (hT : ∀ m, In01 (T m)) (m : Nat) : In01 (Huband.under id M T m) := by
  unfold Huband.under
  split_ifs
  · obtain ⟨h0, h1⟩ := hT m
    obtain ⟨d0, d1⟩ := hT (M - 1)
    have h2 : In01 (max (T (M - 1)) (Huband.degen id m)) := by
      unfold Huband.degen
      split_ifs
      · rw [max_eq_left d0]; exact ⟨d0, d1⟩
      · rw [max_eq_right d1]; exact ⟨by norm_num, le_rfl⟩
    obtain ⟨a0, a1⟩ := h2
    constructor <;> nlinarith
  · exact hT _

theorem front_range {id M : Nat} (hM : 2 ≤ M) {x : Nat → ℝ} (hx : ∀ m, In01 (x m)) {m : Nat} (hm : m < M) : In01 (Huband.front id M x m) := by
  have hcv : In01 (Huband.convex M x m) :=
    prodShape_range hM (fun j _ => flip_range (angle_range (hx j)).2) (fun j _ => flip_range (angle_range (hx j)).1) hm
  unfold Huband.front
  split
  · split_ifs
    · exact hcv
    · exact hMixed_range (hx 0)
  · split_ifs
    · exact hcv
    · exact hDisc_range (hx 0)
  · exact prodShape_range hM (fun j _ => hx j) (fun j _ => flip_range (hx j)) hm
  · exact prodShape_range hM (fun j _ => (angle_range (hx j)).1) (fun j _ => (angle_range (hx j)).2) hm

theorem front_concave {id M : Nat} (h : 4 ≤ id) (x : Nat → ℝ) (m : Nat) : Huband.front id M x m = Huband.concave M x m := by
  unfold Huband.front
  split
  · omega
  · omega
  · omega
  · rfl

theorem front_sq {id M : Nat} (hM : 2 ≤ M) (h : 4 ≤ id) (x : Nat → ℝ) : ∑ m ∈ range M, Huband.front id M x m ^ 2 = 1 := by
  have : ∀ m ∈ range M, Huband.front id M x m ^ 2 =
      wt M (fun j => Real.sin (x j * (Real.pi / 2)) ^ 2) (fun j => Real.cos (x j * (Real.pi / 2)) ^ 2) m := by
    intro m hm
    rw [front_concave h, Huband.concave, prodShape_wt _ _ _ (mem_range.mp hm), wt_sq]
  rw [sum_congr rfl this]
  exact sum_wt hM fun j _ => Real.sin_sq_add_cos_sq _

theorem front_sum {M : Nat} (hM : 2 ≤ M) (x : Nat → ℝ) : ∑ m ∈ range M, Huband.front 3 M x m = 1 := by
  have : ∀ m ∈ range M, Huband.front 3 M x m = wt M x (fun j => 1 - x j) m := by
    intro m hm
    rw [← prodShape_wt _ _ _ (mem_range.mp hm)]
    rfl
  rw [sum_congr rfl this]
  exact sum_wt hM fun j _ => by ring

/-! ## points on the front -/

theorem first8_congr {n k : Nat} {z z' : Nat → ℝ} (h : ∀ i, i < n → z i = z' i) : ∀ i, i < n → first8 k z i = first8 k z' i := by
  intro i
  induction i using Nat.strong_induction_on with
  | _ i ih =>
    intro hi
    rw [first8_mean, first8_mean, h i hi, mean_congr (y := first8 k z) (v := first8 k z') (lo := 0) (len := i)]
    intro j hj; rw [zero_add]; exact ih j hj (by omega)

theorem cTrans_congr {p : Wfg} (hp : Made p) {z z' : Nat → ℝ} (h : ∀ i, i < p.dim → z i = z' i) {i : Nat} (hi : i < p.dim) :
    cTrans p.id p.dim p.k z i = cTrans p.id p.dim p.k z' i := by
  have hk := hp.lt
  have hm : Huband.mean z (i + 1) (p.dim - 1 - i) = Huband.mean z' (i + 1) (p.dim - 1 - i) := mean_congr fun j hj => h _ (by omega)
  have hm0 : Huband.mean z 0 i = Huband.mean z' 0 i := mean_congr fun j hj => h _ (by omega)
  unfold cTrans
  rw [first8_congr h i hi, h i hi]
  congr 1
  unfold Huband.transition
  rw [hm, hm0, h i hi]

theorem red_congr {id k : Nat} {y v : Nat → ℝ} {lo len : Nat} (h : ∀ j, j < len → y (lo + j) = v (lo + j))
    (h23 : id = 2 ∨ id = 3 → k ≤ lo → len % 2 = 0) : cRed id k y lo len = cRed id k v lo len := by
  have hm := mean_congr h
  have hpair : id = 2 ∨ id = 3 → ¬ lo < k → Huband.mean (fun j => Huband.nonsep 2 y (lo + 2 * (j - lo)) 2) lo (len / 2) =
      Huband.mean (fun j => Huband.nonsep 2 v (lo + 2 * (j - lo)) 2) lo (len / 2) := by
    intro e hlo
    have := h23 e (by omega)
    refine mean_congr fun j hj => ?_
    unfold Huband.nonsep
    congr 1
    refine sum_congr rfl fun a ha => ?_
    have ha := mem_range.mp ha
    have e1 : ∀ b, b < 2 → y (lo + 2 * (lo + j - lo) + b) = v (lo + 2 * (lo + j - lo) + b) := by
      intro b hb
      have := h (2 * j + b) (by omega)
      rwa [show lo + (2 * j + b) = lo + 2 * (lo + j - lo) + b by omega] at this
    rw [e1 a ha]
    congr 1
    exact sum_congr rfl fun b _ => by rw [e1 _ (Nat.mod_lt _ (by omega))]
  unfold cRed
  split_ifs with h6
  · unfold cNonsep
    split_ifs with h1
    · subst h1; exact h 0 (by omega)
    · congr 1
      unfold spread
      rw [sum_congr rfl fun j hj => h j (mem_range.mp hj)]
      congr 1
      exact sum_congr rfl fun j hj => sum_congr rfl fun i hi => by
        dsimp only; rw [h j (mem_range.mp hj), h i (mem_range.mp hi)]
  · unfold Huband.reduction
    split
    · unfold Huband.wMean
      rw [sum_congr rfl fun j hj => by rw [h j (mem_range.mp hj)]]
    · omega
    · omega
    · split_ifs with hlo
      · exact hm
      · exact hpair (Or.inl rfl) hlo
    · split_ifs with hlo
      · exact hm
      · exact hpair (Or.inr rfl) hlo
    · exact hm

/-- the final values of the position related blocks depend on the position related transition values only -/
theorem cFinal_pos {p : Wfg} (hp : Made p) {z z' : Nat → ℝ} (h : ∀ i, i < p.k → cTrans p.id p.dim p.k z i = cTrans p.id p.dim p.k z' i)
    {m : Nat} (hm : m < p.fdim - 1) : cFinal p.id p.dim p.fdim p.k z m = cFinal p.id p.dim p.fdim p.k z' m := by
  have hh := hp.hi hm
  have hq := hp.q_pos
  rw [cFinal, cFinal, if_pos hm, if_pos hm]
  exact red_congr (fun j hj => h _ (by omega)) (fun _ h2 => by omega)

theorem cFinal_congr {p : Wfg} (hp : Made p) {z z' : Nat → ℝ} (h : ∀ i, i < p.dim → z i = z' i) (m : Nat) :
    cFinal p.id p.dim p.fdim p.k z m = cFinal p.id p.dim p.fdim p.k z' m := by
  have hk := hp.lt
  by_cases hm : m < p.fdim - 1
  · exact cFinal_pos hp (fun i hi => cTrans_congr hp h (by omega)) hm
  · rw [cFinal, cFinal, if_neg hm, if_neg hm]
    exact red_congr (fun j hj => cTrans_congr hp h (by omega)) (fun e _ => hp.even e)

/-- the bias that depends on the later values can be undone from the last value back -/
theorem undo_later {n c : Nat} (hc : c < n) {w : Nat → ℝ} (hw : Unit' n w) :
    ∃ z : Nat → ℝ, Unit' n z ∧ ∀ i, i < n → (if i < c then Huband.bias (Huband.mean z (i + 1) (n - 1 - i)) (z i) else z i) = w i := by
  have key : ∀ d, d ≤ n → ∃ z : Nat → ℝ, Unit' n z ∧ ∀ i, n - d ≤ i → i < n →
      (if i < c then Huband.bias (Huband.mean z (i + 1) (n - 1 - i)) (z i) else z i) = w i := by
    intro d
    induction d with
    | zero => intro _; exact ⟨w, hw, fun i h1 h2 => by omega⟩
    | succ d ih =>
      intro hd
      obtain ⟨z, hz, hzi⟩ := ih (by omega)
      let j := n - (d + 1)
      let a : ℝ := if j < c then unbias (Huband.mean z (j + 1) (n - 1 - j)) (w j) else w j
      have hjn : j < n := by show n - (d + 1) < n; omega
      have hmean : j < c → In01 (Huband.mean z (j + 1) (n - 1 - j)) := fun hj => mean_range (by omega) fun i hi => hz _ (by omega)
      have ha : In01 a := by
        show In01 (if j < c then unbias (Huband.mean z (j + 1) (n - 1 - j)) (w j) else w j)
        split_ifs with hj
        · exact unbias_range (hmean hj) (hw j hjn)
        · exact hw j hjn
      have hup : ∀ i, j ≤ i → i < n → Huband.mean (upd z j a) (i + 1) (n - 1 - i) = Huband.mean z (i + 1) (n - 1 - i) :=
        fun i h1 _ => mean_congr fun b _ => if_neg (by omega)
      refine ⟨upd z j a, fun i hi => ?_, fun i h1 h2 => ?_⟩
      · unfold upd; split_ifs
        · exact ha
        · exact hz i hi
      · rw [hup i h1 h2]
        by_cases hij : i = j
        · have e : upd z j a i = a := if_pos hij
          rw [e, hij]
          show (if j < c then Huband.bias (Huband.mean z (j + 1) (n - 1 - j))
            (if j < c then unbias (Huband.mean z (j + 1) (n - 1 - j)) (w j) else w j) else
            (if j < c then unbias (Huband.mean z (j + 1) (n - 1 - j)) (w j) else w j)) = w j
          by_cases hj : j < c
          · rw [if_pos hj, if_pos hj, bias_unbias (hmean hj) (hw j hjn)]
          · rw [if_neg hj, if_neg hj]
        · have e : upd z j a i = z i := if_neg hij
          rw [e]
          exact hzi i (by have : n - (d + 1) ≤ i := h1; have : i ≠ n - (d + 1) := hij; omega) h2
  obtain ⟨z, hz, h⟩ := key n le_rfl
  exact ⟨z, hz, fun i hi => h i (by omega) hi⟩

/-- every position on the front is taken by a point at distance zero -/
theorem project {p : Wfg} (hp : Made p) {z : Nat → ℝ} (hz : Unit' p.dim z) :
    ∃ z' : Nat → ℝ, Unit' p.dim z' ∧ (∀ i, i < p.k → cTrans p.id p.dim p.k z' i = cTrans p.id p.dim p.k z i) ∧
      ∀ i, p.k ≤ i → i < p.dim → cTrans p.id p.dim p.k z' i = 0 := by
  have hk := hp.lt
  have h9 := hp.id9
  have h35 : In01 (0.35 : ℝ) := ⟨by norm_num, by norm_num⟩
  have h1 := hp.id1
  have cases : p.id = 1 ∨ p.id = 2 ∨ p.id = 3 ∨ p.id = 4 ∨ p.id = 5 ∨ p.id = 6 ∨ p.id = 7 ∨ p.id = 8 ∨ p.id = 9 := by omega
  have hcut : Unit' p.dim (fun i => if i < p.k then z i else (0.35 : ℝ)) := by
    intro i hi
    show In01 (if i < p.k then z i else (0.35 : ℝ))
    split_ifs
    · exact hz i hi
    · exact h35
  by_cases h456 : p.id ≤ 6
  · refine ⟨fun i => if i < p.k then z i else 0.35, hcut, fun i hi => ?_, fun i g1 h2 => ?_⟩
    · rw [trans_ne8 (by omega), trans_ne8 (by omega)]
      have e : (fun i => if i < p.k then z i else (0.35 : ℝ)) i = z i := if_pos hi
      rcases cases with h | h | h | h | h | h | h | h | h
      · rw [h]; simp only [Huband.transition, if_pos hi]
      · rw [h]; simp only [Huband.transition, if_pos hi]
      · rw [h]; simp only [Huband.transition, if_pos hi]
      · rw [h]; simp only [Huband.transition, if_pos hi]
      · rw [h]; simp only [Huband.transition, if_pos hi]
      · rw [h]; simp only [Huband.transition, if_pos hi]
      all_goals omega
    · rw [cTrans_zero (by omega) (hcut i h2) g1]
      exact if_neg (by omega)
  · rcases cases with h | h | h | h | h | h | h | h | h
    · omega
    · omega
    · omega
    · omega
    · omega
    · omega
    · -- WFG7
      obtain ⟨z', hz', he⟩ := undo_later (n := p.dim) (c := p.k) hk
        (w := fun i => if i < p.k then cTrans p.id p.dim p.k z i else 0.35) (by
          intro i hi
          show In01 (if i < p.k then cTrans p.id p.dim p.k z i else (0.35 : ℝ))
          split_ifs
          · exact cTrans_range hp hz i hi
          · exact h35)
      refine ⟨z', hz', fun i hi => ?_, fun i g1 h2 => ?_⟩
      · have := he i (by omega)
        rw [if_pos hi, if_pos hi] at this
        rw [← this, trans_ne8 (by omega), h]
        simp only [Huband.transition, if_pos hi]
      · have := he i h2
        rw [if_neg (by omega), if_neg (by omega)] at this
        rw [cTrans_zero (by omega) (hz' i h2) g1, this]
    · -- WFG8
      have hv : ∀ i, i < p.dim → In01 ((fun i => if i < p.k then z i else (0.35 : ℝ)) i) := hcut
      let z' : Nat → ℝ := fun i => if i < p.k then z i else unbias (Huband.mean (fun i => if i < p.k then z i else (0.35 : ℝ)) 0 i) 0.35
      have hmean : ∀ i, p.k ≤ i → i < p.dim → In01 (Huband.mean (fun i => if i < p.k then z i else (0.35 : ℝ)) 0 i) :=
        fun i h1 h2 => mean_range (by have := hp.pos; omega) fun j hj => hv _ (by omega)
      have hz' : Unit' p.dim z' := by
        intro i hi
        show In01 (if i < p.k then z i else unbias (Huband.mean (fun i => if i < p.k then z i else (0.35 : ℝ)) 0 i) 0.35)
        split_ifs with hc
        · exact hz i hi
        · exact unbias_range (hmean i (by omega) hi) h35
      have h8 : ∀ i, i < p.dim → first8 p.k z' i = if i < p.k then z i else 0.35 := by
        intro i
        induction i using Nat.strong_induction_on with
        | _ i ih =>
          intro hi
          rw [first8_mean]
          by_cases hc : i < p.k
          · rw [if_pos hc, if_pos hc]; exact if_pos hc
          · rw [if_neg hc, if_neg hc, mean_congr (v := fun i => if i < p.k then z i else (0.35 : ℝ)) (fun j hj => by
              rw [zero_add]; exact ih j hj (by omega)), show z' i = _ from if_neg hc, bias_unbias (hmean i (by omega) hi) h35]
      refine ⟨z', hz', fun i hi => ?_, fun i g1 h2 => ?_⟩
      · rw [cTrans, cTrans, if_pos h, if_pos h, if_pos hi, if_pos hi]
        exact if_pos hi
      · rw [cTrans, if_pos h, if_neg (by omega), h8 i h2, if_neg (by omega), hLinear_zero]
    · -- WFG9
      obtain ⟨z', hz', he⟩ := undo_later (n := p.dim) (c := p.dim - 1) (by omega)
        (w := fun i => if i < p.k then Huband.bias (Huband.mean z (i + 1) (p.dim - 1 - i)) (z i) else 0.35) (by
          intro i hi
          show In01 (if i < p.k then Huband.bias (Huband.mean z (i + 1) (p.dim - 1 - i)) (z i) else (0.35 : ℝ))
          split_ifs
          · exact later_range hz (by omega)
          · exact h35)
      refine ⟨z', hz', fun i hi => ?_, fun i g1 h2 => ?_⟩
      · have := he i (by omega)
        rw [if_pos (by omega), if_pos hi] at this
        rw [trans_ne8 (by omega), trans_ne8 (by omega), h]
        simp only [Huband.transition, if_pos hi]
        rw [this]
      · have := he i h2
        rw [if_neg (by omega : ¬ i < p.k)] at this
        rw [trans_ne8 (by omega), h]
        simp only [Huband.transition, if_neg (by omega : ¬ i < p.k)]
        rw [this]
        exact (hMulti_zero (by norm_num)).mpr rfl

/-! ## no point of the product shapes is below another one -/

/-- the product shape counted from the outermost factor -/
noncomputable def nest (n : Nat) (C S : Nat → ℝ) (i : Nat) : ℝ := (∏ j ∈ range i, C j) * if i = n then 1 else S i

theorem nest_succ (n : Nat) (C S : Nat → ℝ) (i : Nat) :
    nest (n + 1) C S (i + 1) = C 0 * nest n (fun j => C (j + 1)) (fun j => S (j + 1)) i := by
  unfold nest
  rw [prod_range_succ']
  have : (if i + 1 = n + 1 then (1 : ℝ) else S (i + 1)) = if i = n then 1 else S (i + 1) := by
    by_cases h : i = n
    · rw [if_pos h, if_pos (by omega)]
    · rw [if_neg h, if_neg (by omega)]
  rw [this]; ring

theorem nest_zero (n : Nat) (C S : Nat → ℝ) : nest (n + 1) C S 0 = S 0 := by
  unfold nest
  rw [if_neg (by omega)]; simp

theorem nest_pos : ∀ (n : Nat) (C S : Nat → ℝ), (∀ j, j < n → 0 ≤ C j) → (∀ j, j < n → C j = 0 → 0 < S j) →
    ∃ i, i ≤ n ∧ 0 < nest n C S i
  | 0, C, S, _, _ => ⟨0, le_rfl, by simp [nest]⟩
  | n + 1, C, S, hC, hS => by
    rcases (hC 0 (by omega)).lt_or_eq with h | h
    · obtain ⟨i, hi, hp⟩ := nest_pos n (fun j => C (j + 1)) (fun j => S (j + 1)) (fun j hj => hC _ (by omega)) (fun j hj => hS _ (by omega))
      exact ⟨i + 1, by omega, by rw [nest_succ]; positivity⟩
    · exact ⟨0, by omega, by rw [nest_zero]; exact hS 0 (by omega) h.symm⟩

theorem nest_nonneg {n : Nat} {C S : Nat → ℝ} (hC : ∀ j, j < n → 0 ≤ C j) (hS : ∀ j, j < n → 0 ≤ S j) {i : Nat} (hi : i ≤ n) :
    0 ≤ nest n C S i := by
  unfold nest
  refine mul_nonneg (prod_nonneg fun j hj => hC j (by have := mem_range.mp hj; omega)) ?_
  split_ifs
  · norm_num
  · exact hS i (by omega)

theorem nest_le : ∀ (n : Nat) (C S C' S' : Nat → ℝ), (∀ j, j < n → 0 ≤ C j) → (∀ j, j < n → 0 ≤ C' j) → (∀ j, j < n → 0 ≤ S j) →
    (∀ j, j < n → 0 ≤ S' j) → (∀ j, j < n → C' j = 0 → 0 < S' j) → (∀ j, j < n → S' j ≤ S j → C j ≤ C' j) →
    (∀ j, j < n → C j = C' j → S j = S' j) → (∀ i, i ≤ n → nest n C' S' i ≤ nest n C S i) → ∀ i, i ≤ n → nest n C' S' i = nest n C S i
  | 0, C, S, C', S', _, _, _, _, _, _, _, _ => by
    intro i hi
    obtain rfl : i = 0 := by omega
    simp [nest]
  | n + 1, C, S, C', S', hC, hC', hS, hS', hP, hM, hE, hle => by
    have h0 := hle 0 (by omega)
    rw [nest_zero, nest_zero] at h0
    have hc := hM 0 (by omega) h0
    have hs : ∀ i, i ≤ n → C' 0 * nest n (fun j => C' (j + 1)) (fun j => S' (j + 1)) i ≤ C 0 * nest n (fun j => C (j + 1)) (fun j => S (j + 1)) i := by
      intro i hi
      have := hle (i + 1) (by omega)
      rwa [nest_succ, nest_succ] at this
    obtain ⟨a, ha, hpos⟩ := nest_pos n (fun j => C' (j + 1)) (fun j => S' (j + 1)) (fun j hj => hC' _ (by omega)) (fun j hj => hP _ (by omega))
    have heq : C 0 = C' 0 := by
      rcases (hC 0 (by omega)).lt_or_eq with h | h
      · have ih := nest_le n (fun j => C (j + 1)) (fun j => S (j + 1)) (fun j => C' (j + 1)) (fun j => S' (j + 1))
          (fun j hj => hC _ (by omega)) (fun j hj => hC' _ (by omega)) (fun j hj => hS _ (by omega)) (fun j hj => hS' _ (by omega))
          (fun j hj => hP _ (by omega)) (fun j hj => hM _ (by omega)) (fun j hj => hE _ (by omega)) (fun i hi => by
            have h1 := hs i hi
            have h2 : 0 ≤ nest n (fun j => C' (j + 1)) (fun j => S' (j + 1)) i :=
              nest_nonneg (fun j hj => hC' _ (by omega)) (fun j hj => hS' _ (by omega)) hi
            have h3 : C 0 * nest n (fun j => C' (j + 1)) (fun j => S' (j + 1)) i ≤ C' 0 * nest n (fun j => C' (j + 1)) (fun j => S' (j + 1)) i :=
              mul_le_mul_of_nonneg_right hc h2
            exact le_of_mul_le_mul_left (h3.trans h1) h)
        have h1 := hs a ha
        rw [← ih a ha] at h1
        exact le_antisymm hc (le_of_mul_le_mul_right h1 hpos)
      · have h1 := hs a ha
        rw [← h, zero_mul] at h1
        have h2 := hC' 0 (by omega)
        rcases h2.lt_or_eq with h3 | h3
        · have := mul_pos h3 hpos; linarith
        · rw [← h, ← h3]
    intro i hi
    rcases i with _ | i
    · rw [nest_zero, nest_zero, hE 0 (by omega) heq]
    · rw [nest_succ, nest_succ]
      rcases (hC 0 (by omega)).lt_or_eq with h | h
      · rw [← heq]
        congr 1
        exact nest_le n (fun j => C (j + 1)) (fun j => S (j + 1)) (fun j => C' (j + 1)) (fun j => S' (j + 1))
          (fun j hj => hC _ (by omega)) (fun j hj => hC' _ (by omega)) (fun j hj => hS _ (by omega)) (fun j hj => hS' _ (by omega))
          (fun j hj => hP _ (by omega)) (fun j hj => hM _ (by omega)) (fun j hj => hE _ (by omega)) (fun i hi => by
            have h1 := hs i hi
            rw [← heq] at h1
            exact le_of_mul_le_mul_left h1 h) i (by omega)
      · rw [← heq, ← h, zero_mul, zero_mul]

theorem prodShape_nest {M : Nat} (c s : Nat → ℝ) {m : Nat} (hm : m < M) : Huband.prodShape M c s m = nest (M - 1) c s (M - 1 - m) := by
  unfold Huband.prodShape nest
  by_cases h : m = 0
  · rw [if_pos h, if_pos (by omega)]
  · rw [if_neg h, if_neg (by omega)]

/-- one factor of a shape: `c` rises from 0, `s` falls from a positive number -/
structure Factor (c s : ℝ → ℝ) : Prop where
  mono : ∀ a b, In01 a → In01 b → a < b → c a < c b
  anti : ∀ a b, In01 a → In01 b → a < b → s b < s a
  zero : c 0 = 0
  pos : 0 < s 0
  nonneg : ∀ a, In01 a → 0 ≤ s a

theorem Factor.le {n : Nat} {c s : Nat → ℝ → ℝ} (hf : ∀ j, j < n → Factor (c j) (s j)) {a b : Nat → ℝ} (ha : ∀ j, j < n → In01 (a j))
    (hb : ∀ j, j < n → In01 (b j))
    (h : ∀ i, i ≤ n → nest n (fun j => c j (b j)) (fun j => s j (b j)) i ≤ nest n (fun j => c j (a j)) (fun j => s j (a j)) i) :
    ∀ i, i ≤ n → nest n (fun j => c j (b j)) (fun j => s j (b j)) i = nest n (fun j => c j (a j)) (fun j => s j (a j)) i := by
  have h01 : In01 (0 : ℝ) := ⟨le_rfl, by norm_num⟩
  have hc0 : ∀ j, j < n → ∀ u, In01 u → 0 ≤ c j u := by
    intro j hj u hu
    rcases hu.1.lt_or_eq with h | h
    · have := (hf j hj).mono 0 u h01 hu h
      rw [(hf j hj).zero] at this; exact this.le
    · rw [← h, (hf j hj).zero]
  have hinj : ∀ j, j < n → ∀ u v, In01 u → In01 v → c j u = c j v → u = v := by
    intro j hj u v hu hv e
    rcases lt_trichotomy u v with h | h | h
    · have := (hf j hj).mono u v hu hv h; linarith
    · exact h
    · have := (hf j hj).mono v u hv hu h; linarith
  refine nest_le n _ _ _ _ (fun j hj => hc0 j hj _ (ha j hj)) (fun j hj => hc0 j hj _ (hb j hj)) (fun j hj => (hf j hj).nonneg _ (ha j hj))
    (fun j hj => (hf j hj).nonneg _ (hb j hj)) (fun j hj e => ?_) (fun j hj e => ?_) (fun j hj e => ?_) h
  · have := hinj j hj (b j) 0 (hb j hj) h01 (by rw [(hf j hj).zero]; exact e)
    rw [this]; exact (hf j hj).pos
  · by_contra hn
    push Not at hn
    have hlt : b j < a j := by
      rcases lt_trichotomy (a j) (b j) with h1 | h1 | h1
      · have := (hf j hj).mono _ _ (ha j hj) (hb j hj) h1; linarith
      · rw [h1] at hn; exact absurd hn (lt_irrefl _)
      · exact h1
    have := (hf j hj).anti _ _ (hb j hj) (ha j hj) hlt
    linarith
  · rw [hinj j hj _ _ (ha j hj) (hb j hj) e]

theorem sin_mono {a b : ℝ} (ha : In01 a) (hb : In01 b) (h : a < b) : Real.sin (a * (Real.pi / 2)) < Real.sin (b * (Real.pi / 2)) := by
  have hpi := Real.pi_pos
  have h1 : a * (Real.pi / 2) < b * (Real.pi / 2) := mul_lt_mul_of_pos_right h (by linarith)
  have h2 : 0 ≤ a * (Real.pi / 2) := mul_nonneg ha.1 (by linarith)
  have h3 : b * (Real.pi / 2) ≤ 1 * (Real.pi / 2) := mul_le_mul_of_nonneg_right hb.2 (by linarith)
  exact Real.sin_lt_sin_of_lt_of_le_pi_div_two (by linarith) (by linarith) h1

theorem cos_anti {a b : ℝ} (ha : In01 a) (hb : In01 b) (h : a < b) : Real.cos (b * (Real.pi / 2)) < Real.cos (a * (Real.pi / 2)) := by
  have hpi := Real.pi_pos
  have h1 : a * (Real.pi / 2) < b * (Real.pi / 2) := mul_lt_mul_of_pos_right h (by linarith)
  have h2 : 0 ≤ a * (Real.pi / 2) := mul_nonneg ha.1 (by linarith)
  have h3 : b * (Real.pi / 2) ≤ 1 * (Real.pi / 2) := mul_le_mul_of_nonneg_right hb.2 (by linarith)
  exact Real.cos_lt_cos_of_nonneg_of_le_pi_div_two h2 (by linarith) h1

theorem mixed_anti {a b : ℝ} (h : a < b) : Huband.mixed b < Huband.mixed a := by
  have hpi := Real.pi_pos
  have e : ∀ x, Huband.mixed x = 1 - x + Real.sin (10 * Real.pi * x) / (10 * Real.pi) := by
    intro x; unfold Huband.mixed; rw [Real.cos_add_pi_div_two]; ring
  rw [e, e]
  have h1 : Real.sin (10 * Real.pi * b) - Real.sin (10 * Real.pi * a) < 10 * Real.pi * b - 10 * Real.pi * a := by
    rw [Real.sin_sub_sin]
    have hd : 0 < (10 * Real.pi * b - 10 * Real.pi * a) / 2 := by
      have : 10 * Real.pi * a < 10 * Real.pi * b := mul_lt_mul_of_pos_left h (by linarith)
      linarith
    have h2 := Real.abs_sin_lt_abs hd.ne'
    rw [abs_of_pos hd] at h2
    have h3 := Real.abs_cos_le_one ((10 * Real.pi * b + 10 * Real.pi * a) / 2)
    have h4 : Real.sin ((10 * Real.pi * b - 10 * Real.pi * a) / 2) * Real.cos ((10 * Real.pi * b + 10 * Real.pi * a) / 2) ≤
        |Real.sin ((10 * Real.pi * b - 10 * Real.pi * a) / 2)| * 1 := by
      refine (le_abs_self _).trans ?_
      rw [abs_mul]
      exact mul_le_mul_of_nonneg_left h3 (abs_nonneg _)
    linarith
  have h5 : Real.sin (10 * Real.pi * b) / (10 * Real.pi) - Real.sin (10 * Real.pi * a) / (10 * Real.pi) < b - a := by
    rw [← sub_div, div_lt_iff₀ (by linarith)]
    linarith
  linarith

theorem mixed_at_zero : Huband.mixed 0 = 1 := by
  unfold Huband.mixed
  rw [show 10 * Real.pi * 0 + Real.pi / 2 = Real.pi / 2 by ring, Real.cos_pi_div_two]; norm_num

theorem factor_linear : Factor (fun a => a) (fun a => 1 - a) :=
  ⟨fun _ _ _ _ h => h, fun _ _ _ _ h => by linarith, rfl, by norm_num, fun a h => by linarith [h.2]⟩

theorem factor_concave : Factor (fun a => Real.sin (a * (Real.pi / 2))) (fun a => Real.cos (a * (Real.pi / 2))) :=
  ⟨fun _ _ ha hb h => sin_mono ha hb h, fun _ _ ha hb h => cos_anti ha hb h, by simp, by simp, fun a h => (angle_range h).2.1⟩

theorem factor_convex : Factor (fun a => 1 - Real.cos (a * (Real.pi / 2))) (fun a => 1 - Real.sin (a * (Real.pi / 2))) :=
  ⟨fun _ _ ha hb h => by have := cos_anti ha hb h; linarith, fun _ _ ha hb h => by have := sin_mono ha hb h; linarith,
   by simp, by simp, fun a h => (flip_range (angle_range h).1).1⟩

theorem factor_mixed : Factor (fun a => 1 - Real.cos (a * (Real.pi / 2))) Huband.mixed :=
  ⟨factor_convex.mono, fun _ _ _ _ h => mixed_anti h, factor_convex.zero, by rw [mixed_at_zero]; norm_num, fun a h => (hMixed_range h).1⟩

/-- WFG1 and WFG3 to WFG9: a point of the front that is nowhere above another one is this other one -/
theorem front_le {id M : Nat} (hM : 2 ≤ M) (h2 : id ≠ 2) {a b : Nat → ℝ} (ha : ∀ j, In01 (a j)) (hb : ∀ j, In01 (b j))
    (h : ∀ m, m < M → Huband.front id M b m ≤ Huband.front id M a m) {m : Nat} (hm : m < M) : Huband.front id M b m = Huband.front id M a m := by
  have key : ∀ (c s : Nat → ℝ → ℝ), (∀ j, Factor (c j) (s j)) →
      (∀ x m, m < M → Huband.front id M x m = nest (M - 1) (fun j => c j (x j)) (fun j => s j (x j)) (M - 1 - m)) →
      Huband.front id M b m = Huband.front id M a m := by
    intro c s hf he
    rw [he _ _ hm, he _ _ hm]
    refine Factor.le (fun j _ => hf j) (fun j _ => ha j) (fun j _ => hb j) (fun i hi => ?_) _ (by omega)
    have h1 := h (M - 1 - i) (by omega)
    rwa [he _ _ (by omega), he _ _ (by omega), show M - 1 - (M - 1 - i) = i by omega] at h1
  by_cases h1 : id = 1
  · subst h1
    refine key (fun _ a => 1 - Real.cos (a * (Real.pi / 2))) (fun j a => if j = 0 then Huband.mixed a else 1 - Real.sin (a * (Real.pi / 2)))
      (fun j => ?_) (fun x m hm => ?_)
    · by_cases hj : j = 0
      · simp only [if_pos hj]; exact factor_mixed
      · simp only [if_neg hj]; exact factor_convex
    · show (if m < M - 1 then Huband.convex M x m else Huband.mixed (x 0)) = _
      split_ifs with hlt
      · rw [Huband.convex, prodShape_nest _ _ hm]
        unfold nest
        congr 1
        by_cases e : M - 1 - m = M - 1
        · rw [if_pos e, if_pos e]
        · rw [if_neg e, if_neg e]
          dsimp only
          rw [if_neg (by omega)]
      · rw [show M - 1 - m = 0 by omega]
        unfold nest
        rw [if_neg (by omega)]; simp
  · by_cases h3 : id = 3
    · subst h3
      exact key _ _ (fun _ => factor_linear) (fun x m hm => (show Huband.front 3 M x m = Huband.prodShape M x (fun j => 1 - x j) m from rfl).trans (prodShape_nest _ _ hm))
    · refine key _ _ (fun _ => factor_concave) (fun x m hm => ?_)
      have : Huband.front id M x m = Huband.concave M x m := by
        unfold Huband.front
        split
        · exact absurd rfl h1
        · exact absurd rfl h2
        · exact absurd rfl h3
        · rfl
      rw [this]; exact prodShape_nest _ _ hm

theorem front_congr {id M : Nat} (hM : 2 ≤ M) {a b : Nat → ℝ} (h : ∀ m, m < M - 1 → a m = b m) {m : Nat} (hm : m < M) :
    Huband.front id M a m = Huband.front id M b m := by
  have key : ∀ c s : ℝ → ℝ, Huband.prodShape M (fun j => c (a j)) (fun j => s (a j)) m =
      Huband.prodShape M (fun j => c (b j)) (fun j => s (b j)) m := by
    intro c s
    unfold Huband.prodShape
    dsimp only
    rw [show ∏ j ∈ range (M - 1 - m), c (a j) = ∏ j ∈ range (M - 1 - m), c (b j) from
      prod_congr rfl fun j hj => by rw [h j (by have := mem_range.mp hj; omega)]]
    by_cases h0 : m = 0
    · rw [if_pos h0, if_pos h0]
    · rw [if_neg h0, if_neg h0, h (M - 1 - m) (by omega)]
  have hcv := key (fun u => 1 - Real.cos (u * (Real.pi / 2))) (fun u => 1 - Real.sin (u * (Real.pi / 2)))
  unfold Huband.front
  split
  · rw [show Huband.convex M a m = Huband.convex M b m from hcv, h 0 (by omega)]
  · rw [show Huband.convex M a m = Huband.convex M b m from hcv, h 0 (by omega)]
  · exact key (fun u => u) (fun u => 1 - u)
  · exact key (fun u => Real.sin (u * (Real.pi / 2))) (fun u => Real.cos (u * (Real.pi / 2)))

end Verif.Wfg
