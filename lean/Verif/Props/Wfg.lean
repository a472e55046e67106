import Verif.Proof.WfgFront
import Mathlib.Data.List.GetD

/-!
# The WFG problems: C133 (what is computed), C134 (range of the objectives), C135 (the optimal front)
-/

set_option autoImplicit false

namespace Verif.Props

open Verif Verif.Spec Verif.Analytic Verif.Dtlz Verif.Wfg Finset

/-! ## C133 -/

/-- C133: the arguments accepted by the constructor and the exception for the others. -/
theorem C133_ctor (id dim fdim k : Nat) :
    ((1 ≤ id ∧ id ≤ 9 ∧ 2 ≤ fdim ∧ 1 ≤ k ∧ k < dim ∧ (fdim - 1) ∣ k ∧ (id = 2 ∨ id = 3 → Even (dim - k))) →
      Wfg.ctor id dim fdim k = .ok ⟨id, dim, fdim, k⟩) ∧
    (¬ (1 ≤ id ∧ id ≤ 9 ∧ 2 ≤ fdim ∧ 1 ≤ k ∧ k < dim ∧ (fdim - 1) ∣ k ∧ (id = 2 ∨ id = 3 → Even (dim - k))) →
      Wfg.ctor id dim fdim k = .throws .invalidArgument) := by
  unfold Wfg.ctor
  constructor
  · rintro ⟨h1, h2, h3, h4, h5, h6, h7⟩
    have h6 := Nat.mod_eq_zero_of_dvd h6
    have h7 : ¬ ((id = 2 ∨ id = 3) ∧ (dim - k) % 2 ≠ 0) := fun e => e.2 (Nat.even_iff.mp (h7 e.1))
    rw [if_neg (by omega), if_neg (by omega), if_neg (by omega), if_neg (by omega), if_neg h7]
  · intro h
    split_ifs with g1 g2 g3 g4 g5
    all_goals first | rfl | skip
    exfalso
    refine h ⟨by omega, by omega, by omega, by omega, by omega, Nat.dvd_of_mod_eq_zero (by omega), fun e => Nat.even_iff.mpr ?_⟩
    by_contra hn
    exact g5 ⟨e, hn⟩

theorem wfg_made {id dim fdim k : Nat} {p : Wfg} (h : Wfg.ctor id dim fdim k = .ok p) : p = ⟨id, dim, fdim, k⟩ ∧ Made p := by
  by_cases hc : 1 ≤ id ∧ id ≤ 9 ∧ 2 ≤ fdim ∧ 1 ≤ k ∧ k < dim ∧ (fdim - 1) ∣ k ∧ (id = 2 ∨ id = 3 → Even (dim - k))
  · rw [(C133_ctor id dim fdim k).1 hc] at h
    cases h
    obtain ⟨h1, h2, h3, h4, h5, h6, h7⟩ := hc
    exact ⟨rfl, h1, h2, h3, h4, h5, Nat.div_mul_cancel h6, fun e => Nat.even_iff.mp (h7 e)⟩
  · rw [(C133_ctor id dim fdim k).2 hc] at h; cases h

example : Wfg.ctor 2 5 3 2 = .throws .invalidArgument ∧ Wfg.ctor 2 6 3 2 = .ok ⟨2, 6, 3, 2⟩ :=
  ⟨(C133_ctor 2 5 3 2).2 (by decide), (C133_ctor 2 6 3 2).1 (by decide)⟩

/-- the bounds: `x i` is between 0 and `2 (i + 1)`, the normalised variable between 0 and 1 -/
theorem wfg_between {p : Wfg} {x : List ℝ} : BetweenR (Wfg.bounds p) x ↔ x.length = p.dim ∧ Unit' p.dim (zOf x) := by
  have hb1 : (Wfg.bounds p).1 = List.replicate p.dim 0 := rfl
  have hb2 : (Wfg.bounds p).2 = tab p.dim twice := rfl
  have hpos : ∀ i : Nat, (0 : ℝ) < 2 * ((i : ℝ) + 1) := fun i => by positivity
  constructor
  · rintro ⟨h1, -, h3⟩
    rw [hb1, List.length_replicate] at h1
    refine ⟨h1, fun i hi => ?_⟩
    have := h3 i 0 (at0 x i) (twice i) (by rw [hb1]; simp [hi]) (some_at0 (by omega)) (by rw [hb2, tab_at, if_pos hi])
    exact ⟨div_nonneg this.1 (hpos i).le, (div_le_one (hpos i)).mpr this.2⟩
  · rintro ⟨h1, h2⟩
    refine ⟨by rw [hb1]; simp [h1], by rw [hb2, tab_length]; exact h1, fun i l a u hl ha hu => ?_⟩
    rw [hb2, tab_at] at hu
    split_ifs at hu with hi
    cases hu
    rw [hb1] at hl
    simp [hi] at hl
    subst hl
    have h := h2 i hi
    rw [In01, zOf, at0_some ha] at h
    exact ⟨by have := mul_nonneg h.1 (hpos i).le; rwa [div_mul_cancel₀ _ (hpos i).ne'] at this, (div_le_one (hpos i)).mp h.2⟩

/-- The blocks that are reduced by the non-separable reduction have one element or an even number of elements. -/
def EvenSizes (id dim fdim k : Nat) : Prop :=
  id = 6 ∨ id = 9 → (k / (fdim - 1) = 1 ∨ Even (k / (fdim - 1))) ∧ (dim - k = 1 ∨ Even (dim - k))

theorem evenBlocks_of {id dim fdim k : Nat} (h : EvenSizes id dim fdim k) : EvenBlocks ⟨id, dim, fdim, k⟩ := by
  intro e
  obtain ⟨h1, h2⟩ := h e
  exact ⟨h1.imp_right Nat.even_iff.mp, h2.imp_right Nat.even_iff.mp⟩

theorem final_eq {p : Wfg} (hp : Made p) (he : EvenBlocks p) (h8 : p.id = 8 → p.dim = p.k + 1) {z : Nat → ℝ} (m : Nat) :
    cFinal p.id p.dim p.fdim p.k z m = Huband.final p.id p.dim p.fdim p.k z m := by
  have hk := hp.lt
  have ht : ∀ i, i < p.dim → cTrans p.id p.dim p.k z i = Huband.transition p.id p.dim p.k z i := by
    intro i hi
    by_cases h : p.id = 8
    · rw [cTrans, if_pos h, h]
      simp only [Huband.transition]
      by_cases hik : i < p.k
      · rw [if_pos hik, if_pos hik]
      · rw [if_neg hik, if_neg hik, first8_mean, if_neg hik, mean_congr (v := z)]
        intro j hj
        have := h8 h
        rw [zero_add, first8_mean, if_pos (by omega)]
    · rw [trans_ne8 h]
  have hr : ∀ y lo len, 0 < len → (p.id = 6 ∨ p.id = 9 → len = 1 ∨ len % 2 = 0) → cRed p.id p.k y lo len = Huband.reduction p.id p.k y lo len := by
    intro y lo len hl hev
    unfold cRed
    split_ifs with h
    · rw [cNonsep_eq (hev h) hl]
      rcases h with h | h <;> rw [h] <;> rfl
    · rfl
  unfold cFinal Huband.final
  split_ifs with hm
  · have hh := hp.hi hm
    rw [red_congr (v := Huband.transition p.id p.dim p.k z) (fun j hj => ht _ (by omega)) (fun _ h2 => by have := hp.q_pos; omega)]
    exact hr _ _ _ hp.q_pos (fun e => (he e).1)
  · rw [red_congr (v := Huband.transition p.id p.dim p.k z) (fun j hj => ht _ (by omega)) (fun e _ => hp.even e)]
    exact hr _ _ _ (by omega) (fun e => (he e).2)

theorem zOf_getD (x : List ℝ) : zOf x = fun i => x.getD i 0 / (2 * ((i : ℝ) + 1)) := by
  funext i
  unfold zOf
  by_cases h : i < x.length
  · rw [at0_some (some_at0 h), List.getD_eq_getElem?_getD, some_at0 h]; rfl
  · rw [List.getD_eq_getElem?_getD, List.getElem?_eq_none (by omega)]
    simp [at0, List.getElem?_eq_none (show x.length ≤ i by omega)]

/-- C133, in part: for a decision vector in the bounds the fitness is the vector of the published objectives. Missing are WFG6 and WFG9 with
an odd number of elements, larger than one, in a block, and WFG8 with more than one distance related variable: for these it is false,
`C133_wfg6_false`, `C133_wfg9_false`, `C133_wfg8_false`. -/
theorem C133_published_partial {id dim fdim k : Nat} {p : Wfg} (hc : Wfg.ctor id dim fdim k = .ok p) (he : EvenSizes id dim fdim k)
    (h8 : id = 8 → dim = k + 1) (x : List ℝ) (hx : BetweenR (Wfg.bounds p) x) :
    ∃ f, Wfg.fitness p x = .ok f ∧ f.length = fdim ∧ ∀ m, m < fdim →
      f[m]? = some (Huband.objective id dim fdim k (fun i => x.getD i 0 / (2 * ((i : ℝ) + 1))) m) := by
  obtain ⟨rfl, hp⟩ := wfg_made hc
  obtain ⟨hl, hz⟩ := wfg_between.mp hx
  refine ⟨_, fitness_tab hp hl hz, tab_length _ _, fun m hm => ?_⟩
  rw [tab_at, if_pos hm, ← zOf_getD]
  congr 1
  exact objOf_congr hp.two (fun m _ => final_eq hp (evenBlocks_of he) h8 m) hm

example : ∃ f, Wfg.fitness ⟨9, 6, 3, 4⟩ [1, 2, 0, 8, 5, 12] = .ok f ∧ f.length = 3 ∧ ∀ m, m < 3 →
    f[m]? = some (Huband.objective 9 6 3 4 (fun i => [1, 2, 0, 8, 5, 12].getD i 0 / (2 * ((i : ℝ) + 1))) m) := by
  refine C133_published_partial (k := 4) (dim := 6) rfl (fun _ => by decide) (fun h => by cases h) _ ?_
  refine wfg_between.mpr ⟨rfl, fun i hi => ?_⟩
  have hi : i < 6 := hi
  interval_cases i <;> constructor <;> norm_num [zOf, at0]

/-! ## C134 -/

theorem obj_of {p : Wfg} (hp : Made p) (he : EvenBlocks p) {z : Nat → ℝ} (hz : Unit' p.dim z) :
    ∃ (D : ℝ) (h : Nat → ℝ), D = cFinal p.id p.dim p.fdim p.k z (p.fdim - 1) ∧ In01 D ∧ (∀ m, m < p.fdim → In01 (h m)) ∧
      (∀ m, Huband.objOf p.id p.fdim (cFinal p.id p.dim p.fdim p.k z) m = D + 2 * ((m : ℝ) + 1) * h m) ∧
      (4 ≤ p.id → ∑ m ∈ range p.fdim, h m ^ 2 = 1) ∧ (p.id = 3 → ∑ m ∈ range p.fdim, h m = 1) := by
  have hT := cFinal_range hp he hz
  refine ⟨_, Huband.front p.id p.fdim (Huband.under p.id p.fdim (cFinal p.id p.dim p.fdim p.k z)), rfl, hT _,
    fun m hm => front_range hp.two (under_range hT) hm, fun m => rfl, fun h => front_sq hp.two h _, fun h => ?_⟩
  rw [h]; exact front_sum hp.two _

theorem scaled_ge {M : Nat} {D : ℝ} (hM : 1 ≤ M) (hD : 0 ≤ D) {h : Nat → ℝ} (hh : ∀ m, m < M → 0 ≤ h m) :
    (∑ m ∈ range M, h m = 1 → 1 ≤ ∑ m ∈ range M, (D + 2 * ((m : ℝ) + 1) * h m) / (2 * ((m : ℝ) + 1)) ∧
      (∑ m ∈ range M, (D + 2 * ((m : ℝ) + 1) * h m) / (2 * ((m : ℝ) + 1)) = 1 ↔ D = 0)) ∧
    (∑ m ∈ range M, h m ^ 2 = 1 → 1 ≤ ∑ m ∈ range M, ((D + 2 * ((m : ℝ) + 1) * h m) / (2 * ((m : ℝ) + 1))) ^ 2 ∧
      (∑ m ∈ range M, ((D + 2 * ((m : ℝ) + 1) * h m) / (2 * ((m : ℝ) + 1))) ^ 2 = 1 ↔ D = 0)) := by
  have hpos : ∀ i : Nat, (0 : ℝ) < 2 * ((i : ℝ) + 1) := fun i => by positivity
  have e : ∀ m : Nat, (D + 2 * ((m : ℝ) + 1) * h m) / (2 * ((m : ℝ) + 1)) = D / (2 * ((m : ℝ) + 1)) + h m := by
    intro m; have := hpos m; field_simp
  have hd : ∀ m : Nat, 0 ≤ D / (2 * ((m : ℝ) + 1)) := fun m => div_nonneg hD (hpos m).le
  simp only [e]
  constructor
  · intro hs
    have hle : ∑ m ∈ range M, h m ≤ ∑ m ∈ range M, (D / (2 * ((m : ℝ) + 1)) + h m) := sum_le_sum fun m _ => by have := hd m; linarith
    refine ⟨by linarith, fun h1 => ?_, fun h0 => by simp [h0, hs]⟩
    by_contra hne
    have hp : 0 < D := lt_of_le_of_ne hD (Ne.symm hne)
    have : ∑ m ∈ range M, h m < ∑ m ∈ range M, (D / (2 * ((m : ℝ) + 1)) + h m) :=
      sum_lt_sum_of_nonempty ⟨0, mem_range.mpr hM⟩ fun m _ => by have := div_pos hp (hpos m); linarith
    linarith
  · intro hs
    have hle : ∑ m ∈ range M, h m ^ 2 ≤ ∑ m ∈ range M, (D / (2 * ((m : ℝ) + 1)) + h m) ^ 2 := sum_le_sum fun m hm => by
      have := hd m; have := hh m (mem_range.mp hm); nlinarith
    refine ⟨by linarith, fun h1 => ?_, fun h0 => by simp [h0, hs]⟩
    by_contra hne
    have hp : 0 < D := lt_of_le_of_ne hD (Ne.symm hne)
    have : ∑ m ∈ range M, h m ^ 2 < ∑ m ∈ range M, (D / (2 * ((m : ℝ) + 1)) + h m) ^ 2 :=
      sum_lt_sum_of_nonempty ⟨0, mem_range.mpr hM⟩ fun m hm => by
        have := div_pos hp (hpos m); have := hh m (mem_range.mp hm); nlinarith
    linarith

/-- the objectives divided by their scale -/
noncomputable def scaled (f : List ℝ) (m : Nat) : ℝ := f.getD m 0 / (2 * ((m : ℝ) + 1))

theorem scaled_tab {M : Nat} {F : Nat → ℝ} {m : Nat} (hm : m < M) : scaled (tab M F) m = F m / (2 * ((m : ℝ) + 1)) := by
  unfold scaled
  rw [List.getD_eq_getElem?_getD, tab_at, if_pos hm]; rfl

/-- C134, in part: the objectives of a point in the bounds are between 0 and `1 + 2 (m + 1)`; divided by their scales `2 (m + 1)` they are
on or above the unit sphere for WFG4 to WFG9 and on or above the plane with sum 1 for WFG3. Missing are WFG6 and WFG9 with an odd number of
elements, larger than one, in a block: for these it is false, `C134_negative`. -/
theorem C134_range_partial {id dim fdim k : Nat} {p : Wfg} (hc : Wfg.ctor id dim fdim k = .ok p) (he : EvenSizes id dim fdim k)
    (x : List ℝ) (hx : BetweenR (Wfg.bounds p) x) :
    ∃ f, Wfg.fitness p x = .ok f ∧ f.length = fdim ∧
      (∀ (m : Nat) (v : ℝ), f[m]? = some v → 0 ≤ v ∧ v ≤ 1 + 2 * ((m : ℝ) + 1)) ∧
      (4 ≤ id → 1 ≤ ∑ m ∈ range fdim, scaled f m ^ 2) ∧
      (id = 3 → 1 ≤ ∑ m ∈ range fdim, scaled f m) := by
  obtain ⟨rfl, hp⟩ := wfg_made hc
  obtain ⟨hl, hz⟩ := wfg_between.mp hx
  have h2 := hp.two
  obtain ⟨D, h, -, hD, hh, ho, h4, h3⟩ := obj_of hp (evenBlocks_of he) hz
  have hsc := scaled_ge (M := fdim) (D := D) (h := h) (by have : 2 ≤ fdim := h2; omega) hD.1 (fun m hm => (hh m hm).1)
  have hs : ∀ m ∈ range fdim, scaled (tab fdim (Huband.objOf id fdim (cFinal id dim fdim k (zOf x)))) m =
      (D + 2 * ((m : ℝ) + 1) * h m) / (2 * ((m : ℝ) + 1)) := by
    intro m hm
    rw [scaled_tab (mem_range.mp hm)]
    have := ho m
    dsimp only at this
    rw [this]
  refine ⟨_, fitness_tab hp hl hz, tab_length _ _, fun m v hv => ?_, fun hid => ?_, fun hid => ?_⟩
  · rw [tab_at] at hv
    split_ifs at hv with hm
    cases hv
    rw [ho m]
    obtain ⟨a, b⟩ := hh m hm
    obtain ⟨c, d⟩ := hD
    have hm0 : (0 : ℝ) ≤ m := Nat.cast_nonneg m
    constructor <;> nlinarith
  · rw [sum_congr rfl fun m hm => by rw [hs m hm]]
    exact (hsc.2 (h4 hid)).1
  · rw [sum_congr rfl hs]
    exact (hsc.1 (h3 hid)).1

example : ∃ f, Wfg.fitness ⟨4, 6, 3, 4⟩ [1, 2, 0, 8, 5, 12] = .ok f ∧ f.length = 3 ∧
    (∀ (m : Nat) (v : ℝ), f[m]? = some v → 0 ≤ v ∧ v ≤ 1 + 2 * ((m : ℝ) + 1)) ∧
    (4 ≤ 4 → 1 ≤ ∑ m ∈ range 3, scaled f m ^ 2) ∧ (4 = 3 → 1 ≤ ∑ m ∈ range 3, scaled f m) := by
  refine C134_range_partial (k := 4) (dim := 6) rfl (fun h => by omega) _ ?_
  refine wfg_between.mpr ⟨rfl, fun i hi => ?_⟩
  have hi : i < 6 := hi
  interval_cases i <;> constructor <;> norm_num [zOf, at0]

/-! ## C135 -/

/-- a vector with given normalised variables -/
theorem exists_zOf (p : Wfg) {z : Nat → ℝ} (hz : Unit' p.dim z) :
    ∃ y : List ℝ, BetweenR (Wfg.bounds p) y ∧ y.length = p.dim ∧ ∀ i, i < p.dim → zOf y i = z i := by
  have hpos : ∀ i : Nat, (0 : ℝ) < 2 * ((i : ℝ) + 1) := fun i => by positivity
  have h : ∀ i, i < p.dim → zOf (tab p.dim (fun i => z i * (2 * ((i : ℝ) + 1)))) i = z i := by
    intro i hi
    rw [zOf, at0_some (a := z i * (2 * ((i : ℝ) + 1))) (by rw [tab_at, if_pos hi])]
    exact mul_div_cancel_right₀ _ (hpos i).ne'
  exact ⟨_, wfg_between.mpr ⟨tab_length _ _, fun i hi => by rw [h i hi]; exact hz i hi⟩, tab_length _ _, h⟩

theorem optimal_of_dist {p : Wfg} (hp : Made p) (he : EvenBlocks p) (h2 : p.id ≠ 2) {x : List ℝ} (hx : BetweenR (Wfg.bounds p) x)
    (hD : cFinal p.id p.dim p.fdim p.k (zOf x) (p.fdim - 1) = 0) : ParetoOptimalR (Wfg.fitness p) (Wfg.bounds p) x := by
  obtain ⟨hl, hz⟩ := wfg_between.mp hx
  refine ⟨hx, _, fitness_tab hp hl hz, fun y v hy hv hd => ?_⟩
  obtain ⟨hyl, hyz⟩ := wfg_between.mp hy
  rw [fitness_tab hp hyl hyz] at hv
  cases hv
  obtain ⟨-, h1, i, a, b, ha, hb, hab⟩ := hd
  have hi : i < p.fdim := by
    have := (List.getElem?_eq_some_iff.mp ha).1
    rwa [tab_length] at this
  have hTx := cFinal_range hp he hz
  have hTy := cFinal_range hp he hyz
  have hpos : ∀ i : Nat, (0 : ℝ) < 2 * ((i : ℝ) + 1) := fun i => by positivity
  have hle : ∀ m, m < p.fdim → Huband.front p.id p.fdim (Huband.under p.id p.fdim (cFinal p.id p.dim p.fdim p.k (zOf y))) m ≤
      Huband.front p.id p.fdim (Huband.under p.id p.fdim (cFinal p.id p.dim p.fdim p.k (zOf x))) m := by
    intro m hm
    have := h1 m _ _ (by rw [tab_at, if_pos hm]) (by rw [tab_at, if_pos hm])
    unfold Huband.objOf at this
    rw [hD, zero_add] at this
    have hd := (hTy (p.fdim - 1)).1
    exact le_of_mul_le_mul_left (by linarith) (hpos m)
  have heq := front_le hp.two h2 (under_range hTx) (under_range hTy) hle hi
  rw [tab_at, if_pos hi] at ha hb
  cases ha; cases hb
  unfold Huband.objOf at hab
  rw [heq, hD] at hab
  have hd := (hTy (p.fdim - 1)).1
  linarith

theorem dist_of_optimal {p : Wfg} (hp : Made p) (he : EvenBlocks p) (h3 : p.id = 3 → p.fdim = 2) {x : List ℝ}
    (hx : ParetoOptimalR (Wfg.fitness p) (Wfg.bounds p) x) : cFinal p.id p.dim p.fdim p.k (zOf x) (p.fdim - 1) = 0 := by
  obtain ⟨hb, u, hu, hnd⟩ := hx
  obtain ⟨hl, hz⟩ := wfg_between.mp hb
  have h2 := hp.two
  rw [fitness_tab hp hl hz] at hu
  cases hu
  obtain ⟨z', hz', hpz, h0⟩ := project hp hz
  obtain ⟨y, hy, hyl, hyz⟩ := exists_zOf p hz'
  have hyu := (wfg_between.mp hy).2
  by_contra hne
  have hD0 := dist_nonneg hp hz
  have hDpos := lt_of_le_of_ne hD0 (Ne.symm hne)
  have hDy : cFinal p.id p.dim p.fdim p.k (zOf y) (p.fdim - 1) = 0 :=
    (dist_zero hp hyu).mpr fun i h1 h2 => by rw [cTrans_congr hp hyz h2]; exact h0 i h1 h2
  have hT : ∀ m, m < p.fdim - 1 → cFinal p.id p.dim p.fdim p.k (zOf y) m = cFinal p.id p.dim p.fdim p.k (zOf x) m :=
    fun m hm => cFinal_pos hp (fun i hi => by rw [cTrans_congr hp hyz (by have := hp.lt; omega)]; exact hpz i hi) hm
  have hu : ∀ m, m < p.fdim - 1 → Huband.under p.id p.fdim (cFinal p.id p.dim p.fdim p.k (zOf y)) m =
      Huband.under p.id p.fdim (cFinal p.id p.dim p.fdim p.k (zOf x)) m := by
    intro m hm
    have hg : Huband.degen p.id m = 1 := if_neg (fun e => by have := h3 e.1; omega)
    unfold Huband.under
    rw [if_pos hm, if_pos hm, hg, hDy, hT m hm, max_eq_right (cFinal_range hp he hz _).2, max_eq_right (by norm_num)]
  have hf : ∀ m, m < p.fdim → Huband.front p.id p.fdim (Huband.under p.id p.fdim (cFinal p.id p.dim p.fdim p.k (zOf y))) m =
      Huband.front p.id p.fdim (Huband.under p.id p.fdim (cFinal p.id p.dim p.fdim p.k (zOf x))) m := by
    intro m hm
    exact front_congr h2 hu hm
  refine hnd y _ hy (fitness_tab hp hyl hyu) ⟨by rw [tab_length, tab_length], fun i a b ha hb => ?_, 0, _, _, by rw [tab_at, if_pos (by omega)],
    by rw [tab_at, if_pos (by omega)], ?_⟩
  · rw [tab_at] at ha hb
    split_ifs at ha hb with hi
    cases ha; cases hb
    unfold Huband.objOf
    rw [hDy, hf i hi]; linarith
  · unfold Huband.objOf
    rw [hDy, hf 0 (by omega)]; linarith

theorem dist_iff_tail {p : Wfg} (hp : Made p) (h7 : p.id ≤ 7) {x : List ℝ} (hl : x.length = p.dim) (hz : Unit' p.dim (zOf x)) :
    cFinal p.id p.dim p.fdim p.k (zOf x) (p.fdim - 1) = 0 ↔
      ∀ (i : Nat) (a : ℝ), p.k ≤ i → x[i]? = some a → a = 0.35 * (2 * ((i : ℝ) + 1)) := by
  have hpos : ∀ i : Nat, (0 : ℝ) < 2 * ((i : ℝ) + 1) := fun i => by positivity
  rw [dist_zero hp hz]
  constructor
  · intro h i a hi ha
    have hlt : i < p.dim := by have := (List.getElem?_eq_some_iff.mp ha).1; omega
    have := (cTrans_zero h7 (hz i hlt) hi).mp (h i hi hlt)
    rw [zOf, at0_some ha, div_eq_iff (hpos i).ne'] at this
    exact this
  · intro h i hi hlt
    rw [cTrans_zero h7 (hz i hlt) hi, zOf, h i _ hi (some_at0 (by omega))]
    exact mul_div_cancel_right₀ _ (hpos i).ne'

/-- C135, in part: a point in the bounds whose distance related variables are 0.35 of their upper bounds is on the optimal front of WFG1
and WFG3 to WFG7; every point on the optimal front of WFG1, WFG2 and WFG4 to WFG7, and of WFG3 with two objectives, is of this kind.
Missing are WFG6 with an odd number of elements, larger than one, in a block: for it this is false, `C134_negative`; and WFG8 and WFG9, see
`C135_sphere_partial`. -/
theorem C135_front_partial {id dim fdim k : Nat} {p : Wfg} (hc : Wfg.ctor id dim fdim k = .ok p) (he : EvenSizes id dim fdim k) (h7 : id ≤ 7)
    (x : List ℝ) (hx : BetweenR (Wfg.bounds p) x) :
    (id ≠ 2 → (∀ (i : Nat) (a : ℝ), k ≤ i → x[i]? = some a → a = 0.35 * (2 * ((i : ℝ) + 1))) → ParetoOptimalR (Wfg.fitness p) (Wfg.bounds p) x) ∧
    ((id = 3 → fdim = 2) → ParetoOptimalR (Wfg.fitness p) (Wfg.bounds p) x →
      ∀ (i : Nat) (a : ℝ), k ≤ i → x[i]? = some a → a = 0.35 * (2 * ((i : ℝ) + 1))) := by
  obtain ⟨rfl, hp⟩ := wfg_made hc
  obtain ⟨hl, hz⟩ := wfg_between.mp hx
  exact ⟨fun h2 ht => optimal_of_dist hp (evenBlocks_of he) h2 hx ((dist_iff_tail hp h7 hl hz).mpr ht),
    fun h3 ho => (dist_iff_tail hp h7 hl hz).mp (dist_of_optimal hp (evenBlocks_of he) h3 ho)⟩

/-- C135, in part: the optimal front of WFG4 to WFG9 is what reaches the sphere with the semi-axes 2, 4, 6, ... For WFG6 and WFG9 with an odd
number of elements, larger than one, in a block this is false, `C134_negative`. -/
theorem C135_sphere_partial {id dim fdim k : Nat} {p : Wfg} (hc : Wfg.ctor id dim fdim k = .ok p) (he : EvenSizes id dim fdim k) (h4 : 4 ≤ id)
    (x : List ℝ) (hx : BetweenR (Wfg.bounds p) x) :
    ParetoOptimalR (Wfg.fitness p) (Wfg.bounds p) x ↔
      ∃ f, Wfg.fitness p x = .ok f ∧ ∑ m ∈ range fdim, scaled f m ^ 2 = 1 := by
  obtain ⟨rfl, hp⟩ := wfg_made hc
  obtain ⟨hl, hz⟩ := wfg_between.mp hx
  have h2 := hp.two
  obtain ⟨D, h, hDe, hD, hh, ho, h4', -⟩ := obj_of hp (evenBlocks_of he) hz
  have hsc := (scaled_ge (M := fdim) (D := D) (h := h) (by have : 2 ≤ fdim := h2; omega) hD.1 (fun m hm => (hh m hm).1)).2 (h4' h4)
  have hs : ∀ m ∈ range fdim, scaled (tab fdim (Huband.objOf id fdim (cFinal id dim fdim k (zOf x)))) m ^ 2 =
      ((D + 2 * ((m : ℝ) + 1) * h m) / (2 * ((m : ℝ) + 1))) ^ 2 := by
    intro m hm
    rw [scaled_tab (mem_range.mp hm)]
    have := ho m
    dsimp only at this
    rw [this]
  constructor
  · intro hopt
    refine ⟨_, fitness_tab hp hl hz, ?_⟩
    rw [sum_congr rfl hs, hsc.2, hDe]
    exact dist_of_optimal hp (evenBlocks_of he) (fun e => by dsimp only at e; omega) hopt
  · rintro ⟨f, hf, hsum⟩
    rw [fitness_tab hp hl hz] at hf
    cases hf
    rw [sum_congr rfl hs, hsc.2, hDe] at hsum
    exact optimal_of_dist hp (evenBlocks_of he) (by dsimp only; omega) hx hsum

example : ParetoOptimalR (Wfg.fitness ⟨6, 6, 3, 4⟩) (Wfg.bounds ⟨6, 6, 3, 4⟩) [1, 2, 0, 8, 3.5, 4.2] := by
  refine (C135_front_partial (k := 4) (dim := 6) (fdim := 3) (id := 6) rfl (fun _ => by decide) (by decide) _ ?_).1 (by decide) fun i a hi ha => ?_
  · refine wfg_between.mpr ⟨rfl, fun i hi => ?_⟩
    have hi : i < 6 := hi
    interval_cases i <;> constructor <;> norm_num [zOf, at0]
  · have hlt := (List.getElem?_eq_some_iff.mp ha).1
    have hlt : i < 6 := hlt
    interval_cases i <;> simp at ha <;> subst ha <;> norm_num

/-! ## what is wrong -/

theorem sum_two (f : Nat → ℝ) : ∑ i ∈ range 2, f i = f 0 + f 1 := by rw [sum_range_succ, sum_range_one]

theorem sum_three (f : Nat → ℝ) : ∑ i ∈ range 3, f i = f 0 + f 1 + f 2 := by rw [sum_range_succ, sum_two]

/-- the objectives of a problem with two objectives and a concave front -/
theorem two_objectives {id : Nat} (h : 4 ≤ id) (T : Nat → ℝ) (hD : T 1 ≤ 1) :
    Huband.objOf id 2 T 0 = T 1 + 2 * Real.sin (T 0 * (Real.pi / 2)) ∧ Huband.objOf id 2 T 1 = T 1 + 4 * Real.cos (T 0 * (Real.pi / 2)) := by
  have hu : Huband.under id 2 T 0 = T 0 := by
    unfold Huband.under
    rw [if_pos (by omega), show Huband.degen id 0 = 1 from if_neg (by omega), max_eq_right hD]; ring
  unfold Huband.objOf
  rw [front_concave h, front_concave h]
  unfold Huband.concave Huband.prodShape
  simp [hu]
  norm_num

theorem cNonsep_three (y : Nat → ℝ) (lo : Nat) :
    cNonsep 3 y lo = (y lo + y (lo + 1) + y (lo + 2) + 2 * (|y lo - y (lo + 1)| + |y lo - y (lo + 2)| + |y (lo + 1) - y (lo + 2)|)) / 3 := by
  unfold cNonsep spread Huband.half
  simp only [sum_three, sub_self, abs_zero, abs_sub_comm (y (lo + 1)) (y (lo + 0)), abs_sub_comm (y (lo + 2)) (y (lo + 0)),
    abs_sub_comm (y (lo + 2)) (y (lo + 1))]
  norm_num
  ring

theorem nonsep_three (y : Nat → ℝ) (lo : Nat) : Huband.nonsep 3 y lo 3 = cNonsep 3 y lo / 2 := by
  rw [nonsep_eq (by omega), cNonsep, if_neg (by omega), div_div]
  congr 1
  unfold Huband.half
  norm_num

theorem cNonsep_two (y : Nat → ℝ) (lo : Nat) : cNonsep 2 y lo = (y lo + y (lo + 1) + 2 * |y lo - y (lo + 1)|) / 3 := by
  unfold cNonsep spread Huband.half
  simp only [sum_two, sub_self, abs_zero, abs_sub_comm (y (lo + 1)) (y (lo + 0))]
  norm_num
  ring

theorem wfg6_final (z : Nat → ℝ) : cFinal 6 5 2 3 z 0 = cNonsep 3 (fun i => if i < 3 then z i else Huband.sLinear 0.35 (z i)) 0 ∧
    cFinal 6 5 2 3 z 1 = cNonsep 2 (fun i => if i < 3 then z i else Huband.sLinear 0.35 (z i)) 3 := ⟨rfl, rfl⟩

/-- C134, C135 and C133 are false for WFG6 with three elements in a block. Of the problem with five variables, two objectives and `k = 3`,
the point (0, 4, 6, 2.8, 3.5) has the objectives (0, -4), negative; the published objectives are (2, 0). No point in the bounds has a smaller
value in any of the objectives: the front is this point. -/
theorem C134_negative : ∃ (p : Wfg) (x : List ℝ), Wfg.ctor 6 5 2 3 = .ok p ∧ BetweenR (Wfg.bounds p) x ∧ Wfg.fitness p x = .ok [0, -4] ∧
    ∀ y v, BetweenR (Wfg.bounds p) y → Wfg.fitness p y = .ok v → ∃ a b, v = [a, b] ∧ 0 ≤ a ∧ -4 ≤ b := by
  have hp : Made ⟨6, 5, 2, 3⟩ := (wfg_made (id := 6) (dim := 5) (fdim := 2) (k := 3) rfl).2
  have htab : ∀ F : Nat → ℝ, tab 2 F = [F 0, F 1] := fun F => rfl
  have hx : BetweenR (Wfg.bounds ⟨6, 5, 2, 3⟩) [0, 4, 6, 2.8, 3.5] := by
    refine wfg_between.mpr ⟨rfl, fun i hi => ?_⟩
    have hi : i < 5 := hi
    interval_cases i <;> constructor <;> norm_num [zOf, at0]
  refine ⟨⟨6, 5, 2, 3⟩, [0, 4, 6, 2.8, 3.5], rfl, hx, ?_, fun y v hy hv => ?_⟩
  · obtain ⟨hl, hz⟩ := wfg_between.mp hx
    rw [fitness_tab hp hl hz]
    have h0 : cFinal 6 5 2 3 (zOf [0, 4, 6, 2.8, 3.5]) 0 = 2 := by
      rw [(wfg6_final _).1, cNonsep_three]; norm_num [zOf, at0]
    have h1 : cFinal 6 5 2 3 (zOf [0, 4, 6, 2.8, 3.5]) 1 = 0 := by
      rw [(wfg6_final _).2, cNonsep_two]; norm_num [zOf, at0, Huband.sLinear]
    obtain ⟨e0, e1⟩ := two_objectives (id := 6) (by omega) (cFinal 6 5 2 3 (zOf [0, 4, 6, 2.8, 3.5])) (by rw [h1]; norm_num)
    rw [h0, h1, show (2 : ℝ) * (Real.pi / 2) = Real.pi by ring, Real.sin_pi] at e0
    rw [h0, h1, show (2 : ℝ) * (Real.pi / 2) = Real.pi by ring, Real.cos_pi] at e1
    show Outcome.ok (tab 2 (Huband.objOf 6 2 _)) = _
    rw [htab, e0, e1]; norm_num
  · obtain ⟨hl, hz⟩ := wfg_between.mp hy
    rw [fitness_tab hp hl hz] at hv
    cases hv
    have ht := cTrans_range hp hz
    have hD0 : 0 ≤ cFinal 6 5 2 3 (zOf y) 1 := dist_nonneg hp hz
    have hD1 : cFinal 6 5 2 3 (zOf y) 1 ≤ 1 := by
      have : cFinal 6 5 2 3 (zOf y) 1 = Huband.nonsep 2 (cTrans 6 5 3 (zOf y)) 3 2 :=
        cNonsep_eq (n := 2) (y := cTrans 6 5 3 (zOf y)) (lo := 3) (Or.inr rfl) (by omega)
      rw [this]
      exact (nonsep_range (by omega) (fun j hj => ht _ (by show 3 + j < 5; omega))).2
    have hT0 : 0 ≤ cFinal 6 5 2 3 (zOf y) 0 :=
      cNonsep_nonneg (n := 3) (y := cTrans 6 5 3 (zOf y)) (lo := 0) (by omega) (fun j hj => (ht _ (by show 0 + j < 5; omega)).1)
    have hT2 : cFinal 6 5 2 3 (zOf y) 0 ≤ 2 := by
      have : cFinal 6 5 2 3 (zOf y) 0 = 2 * Huband.nonsep 3 (cTrans 6 5 3 (zOf y)) 0 3 := by
        rw [nonsep_three]
        have : cFinal 6 5 2 3 (zOf y) 0 = cNonsep 3 (cTrans 6 5 3 (zOf y)) 0 := rfl
        rw [this]; ring
      rw [this]
      have := (nonsep_range (y := cTrans 6 5 3 (zOf y)) (lo := 0) (n := 3) (by omega) (fun j hj => ht _ (by show 0 + j < 5; omega))).2
      linarith
    obtain ⟨e0, e1⟩ := two_objectives (id := 6) (by omega) (cFinal 6 5 2 3 (zOf y)) hD1
    refine ⟨_, _, htab _, ?_, ?_⟩
    · show 0 ≤ Huband.objOf 6 2 (cFinal 6 5 2 3 (zOf y)) 0
      rw [e0]
      have hpi := Real.pi_pos
      have : 0 ≤ Real.sin (cFinal 6 5 2 3 (zOf y) 0 * (Real.pi / 2)) :=
        Real.sin_nonneg_of_nonneg_of_le_pi (mul_nonneg hT0 (by linarith)) (by
          have := mul_le_mul_of_nonneg_right hT2 (show 0 ≤ Real.pi / 2 by linarith)
          linarith)
      linarith
    · show -4 ≤ Huband.objOf 6 2 (cFinal 6 5 2 3 (zOf y)) 1
      rw [e1]
      have := Real.neg_one_le_cos (cFinal 6 5 2 3 (zOf y) 0 * (Real.pi / 2))
      linarith

/-- C133 is false for WFG6 with three elements in a block: (2, 0) are the published objectives of the point of `C134_negative`. -/
theorem C133_wfg6_false : ∃ (p : Wfg) (x : List ℝ), Wfg.ctor 6 5 2 3 = .ok p ∧ BetweenR (Wfg.bounds p) x ∧ Wfg.fitness p x = .ok [0, -4] ∧
    Huband.objective 6 5 2 3 (fun i => x.getD i 0 / (2 * ((i : ℝ) + 1))) 0 = 2 ∧
    Huband.objective 6 5 2 3 (fun i => x.getD i 0 / (2 * ((i : ℝ) + 1))) 1 = 0 := by
  have hp : Made ⟨6, 5, 2, 3⟩ := (wfg_made (id := 6) (dim := 5) (fdim := 2) (k := 3) rfl).2
  have htab : ∀ F : Nat → ℝ, tab 2 F = [F 0, F 1] := fun F => rfl
  have hx : BetweenR (Wfg.bounds ⟨6, 5, 2, 3⟩) [0, 4, 6, 2.8, 3.5] := by
    refine wfg_between.mpr ⟨rfl, fun i hi => ?_⟩
    have hi : i < 5 := hi
    interval_cases i <;> constructor <;> norm_num [zOf, at0]
  have hc0 : cFinal 6 5 2 3 (zOf [0, 4, 6, 2.8, 3.5]) 0 = 2 := by
    rw [(wfg6_final _).1, cNonsep_three]; norm_num [zOf, at0]
  have hc1 : cFinal 6 5 2 3 (zOf [0, 4, 6, 2.8, 3.5]) 1 = 0 := by
    rw [(wfg6_final _).2, cNonsep_two]; norm_num [zOf, at0, Huband.sLinear]
  refine ⟨⟨6, 5, 2, 3⟩, [0, 4, 6, 2.8, 3.5], rfl, hx, ?_, ?_⟩
  · obtain ⟨hl, hz⟩ := wfg_between.mp hx
    rw [fitness_tab hp hl hz]
    obtain ⟨e0, e1⟩ := two_objectives (id := 6) (by omega) (cFinal 6 5 2 3 (zOf [0, 4, 6, 2.8, 3.5])) (by rw [hc1]; norm_num)
    rw [hc0, hc1, show (2 : ℝ) * (Real.pi / 2) = Real.pi by ring, Real.sin_pi] at e0
    rw [hc0, hc1, show (2 : ℝ) * (Real.pi / 2) = Real.pi by ring, Real.cos_pi] at e1
    show Outcome.ok (tab 2 (Huband.objOf 6 2 _)) = _
    rw [htab, e0, e1]; norm_num
  · rw [← zOf_getD]
    have h0 : Huband.final 6 5 2 3 (zOf [0, 4, 6, 2.8, 3.5]) 0 = 1 := by
      have : Huband.final 6 5 2 3 (zOf [0, 4, 6, 2.8, 3.5]) 0 = Huband.nonsep 3 (cTrans 6 5 3 (zOf [0, 4, 6, 2.8, 3.5])) 0 3 := rfl
      rw [this, nonsep_three]
      have : cFinal 6 5 2 3 (zOf [0, 4, 6, 2.8, 3.5]) 0 = cNonsep 3 (cTrans 6 5 3 (zOf [0, 4, 6, 2.8, 3.5])) 0 := rfl
      rw [← this, hc0]; norm_num
    have h1 : Huband.final 6 5 2 3 (zOf [0, 4, 6, 2.8, 3.5]) 1 = 0 := by
      have : Huband.final 6 5 2 3 (zOf [0, 4, 6, 2.8, 3.5]) 1 = Huband.nonsep 2 (cTrans 6 5 3 (zOf [0, 4, 6, 2.8, 3.5])) 3 2 := rfl
      rw [this, ← cNonsep_eq (Or.inr rfl) (by omega)]
      exact hc1
    obtain ⟨e0, e1⟩ := two_objectives (id := 6) (by omega) (Huband.final 6 5 2 3 (zOf [0, 4, 6, 2.8, 3.5])) (by rw [h1]; norm_num)
    rw [h0, h1, one_mul, Real.sin_pi_div_two] at e0
    rw [h0, h1, one_mul, Real.cos_pi_div_two] at e1
    unfold Huband.objective
    rw [e0, e1]; norm_num

/-- C133 is false for WFG9 with three elements in a block: at the upper bounds the first objective is not the published one. -/
theorem C133_wfg9_false : ∃ (p : Wfg) (x f : List ℝ), Wfg.ctor 9 5 2 3 = .ok p ∧ BetweenR (Wfg.bounds p) x ∧ Wfg.fitness p x = .ok f ∧
    f[0]? ≠ some (Huband.objective 9 5 2 3 (fun i => x.getD i 0 / (2 * ((i : ℝ) + 1))) 0) := by
  have hp : Made ⟨9, 5, 2, 3⟩ := (wfg_made (id := 9) (dim := 5) (fdim := 2) (k := 3) rfl).2
  have hz1 : ∀ i, i < 5 → zOf [2, 4, 6, 8, 10] i = 1 := by
    intro i hi
    interval_cases i <;> norm_num [zOf, at0]
  have h01 : In01 (1 : ℝ) := ⟨by norm_num, le_rfl⟩
  have hz : Unit' 5 (zOf [2, 4, 6, 8, 10]) := fun i hi => by rw [hz1 i hi]; exact h01
  have hx : BetweenR (Wfg.bounds ⟨9, 5, 2, 3⟩) [2, 4, 6, 8, 10] := wfg_between.mpr ⟨rfl, hz⟩
  have hbias : ∀ u : ℝ, Huband.bias u 1 = 1 := fun u => Real.one_rpow _
  have hdec : Huband.sDecept 0.35 0.001 0.05 1 = 0.05 := by norm_num [Huband.sDecept]
  have hpos : ∀ i, i < 3 → cTrans 9 5 3 (zOf [2, 4, 6, 8, 10]) i = 0.05 := by
    intro i hi
    rw [trans_ne8 (by omega)]
    simp only [Huband.transition, if_pos hi]
    rw [hz1 i (by omega), hbias, hdec]
  have hc0 : cFinal 9 5 2 3 (zOf [2, 4, 6, 8, 10]) 0 = 0.05 := by
    have : cFinal 9 5 2 3 (zOf [2, 4, 6, 8, 10]) 0 = cNonsep 3 (cTrans 9 5 3 (zOf [2, 4, 6, 8, 10])) 0 := rfl
    rw [this, cNonsep_three, hpos 0 (by omega), hpos (0 + 1) (by omega), hpos (0 + 2) (by omega)]; norm_num
  have hf0 : Huband.final 9 5 2 3 (zOf [2, 4, 6, 8, 10]) 0 = 0.025 := by
    have : Huband.final 9 5 2 3 (zOf [2, 4, 6, 8, 10]) 0 = Huband.nonsep 3 (cTrans 9 5 3 (zOf [2, 4, 6, 8, 10])) 0 3 := rfl
    rw [this, nonsep_three, cNonsep_three, hpos 0 (by omega), hpos (0 + 1) (by omega), hpos (0 + 2) (by omega)]; norm_num
  have he : cFinal 9 5 2 3 (zOf [2, 4, 6, 8, 10]) 1 = Huband.final 9 5 2 3 (zOf [2, 4, 6, 8, 10]) 1 :=
    cNonsep_eq (n := 2) (y := cTrans 9 5 3 (zOf [2, 4, 6, 8, 10])) (lo := 3) (Or.inr rfl) (by omega)
  have hD : cFinal 9 5 2 3 (zOf [2, 4, 6, 8, 10]) 1 ≤ 1 := by
    have : cFinal 9 5 2 3 (zOf [2, 4, 6, 8, 10]) 1 = Huband.nonsep 2 (cTrans 9 5 3 (zOf [2, 4, 6, 8, 10])) 3 2 :=
      cNonsep_eq (n := 2) (y := cTrans 9 5 3 (zOf [2, 4, 6, 8, 10])) (lo := 3) (Or.inr rfl) (by omega)
    rw [this]
    exact (nonsep_range (by omega) (fun j hj => cTrans_range hp hz _ (by show 3 + j < 5; omega))).2
  refine ⟨⟨9, 5, 2, 3⟩, [2, 4, 6, 8, 10], _, rfl, hx, fitness_tab hp rfl hz, ?_⟩
  rw [tab_at, if_pos (show 0 < 2 by omega), ← zOf_getD]
  intro e
  have e := Option.some.inj e
  change Huband.objOf 9 2 (cFinal 9 5 2 3 (zOf [2, 4, 6, 8, 10])) 0 = Huband.objOf 9 2 (Huband.final 9 5 2 3 (zOf [2, 4, 6, 8, 10])) 0 at e
  rw [(two_objectives (by omega) _ hD).1, (two_objectives (by omega) _ (he ▸ hD)).1, hc0, hf0, he] at e
  have := sin_mono (a := 0.025) (b := 0.05) ⟨by norm_num, by norm_num⟩ ⟨by norm_num, by norm_num⟩ (by norm_num)
  linarith

/-- C133 is false for WFG8 with two distance related variables: at (0, 2, 3) the first objective of the problem with three variables, two
objectives and `k = 1` is not the published one. -/
theorem C133_wfg8_false : ∃ (p : Wfg) (x f : List ℝ), Wfg.ctor 8 3 2 1 = .ok p ∧ BetweenR (Wfg.bounds p) x ∧ Wfg.fitness p x = .ok f ∧
    f[0]? ≠ some (Huband.objective 8 3 2 1 (fun i => x.getD i 0 / (2 * ((i : ℝ) + 1))) 0) := by
  have hp : Made ⟨8, 3, 2, 1⟩ := (wfg_made (id := 8) (dim := 3) (fdim := 2) (k := 1) rfl).2
  have hz0 : zOf [0, 2, 3] 0 = 0 := by norm_num [zOf, at0]
  have hz1 : zOf [0, 2, 3] 1 = 1 / 2 := by norm_num [zOf, at0]
  have hz2 : zOf [0, 2, 3] 2 = 1 / 2 := by norm_num [zOf, at0]
  have hz : Unit' 3 (zOf [0, 2, 3]) := by
    intro i hi
    interval_cases i
    · rw [hz0]; exact ⟨le_rfl, by norm_num⟩
    · rw [hz1]; exact ⟨by norm_num, by norm_num⟩
    · rw [hz2]; exact ⟨by norm_num, by norm_num⟩
  have hx : BetweenR (Wfg.bounds ⟨8, 3, 2, 1⟩) [0, 2, 3] := wfg_between.mpr ⟨rfl, hz⟩
  generalize hzz : zOf [0, 2, 3] = z at *
  -- the exponent
  have hexp : ∀ u : ℝ, u ≤ 1 / 2 → Huband.expo (0.98 / 49.98) 0.02 50 u = 0.02 + 1.96 * u := by
    intro u hu
    unfold Huband.expo
    rw [if_pos hu]; norm_num; ring
  obtain ⟨t, htdef⟩ : ∃ t : ℝ, t = Huband.bias 0 (1 / 2) := ⟨_, rfl⟩
  have ht1 : t ≤ 1 := by rw [htdef]; exact (bias_range ⟨le_rfl, by norm_num⟩ ⟨by norm_num, by norm_num⟩).2
  have ht : 1 / 2 < t := by
    rw [htdef, Huband.bias, Huband.bParam, hexp 0 (by norm_num)]
    calc (1 / 2 : ℝ) = (1 / 2) ^ (1 : ℝ) := (Real.rpow_one _).symm
      _ < (1 / 2) ^ (0.02 + 1.96 * 0 : ℝ) := Real.rpow_lt_rpow_of_exponent_gt (by norm_num) (by norm_num) (by norm_num)
  have hm1 : ∀ y : Nat → ℝ, Huband.mean y 0 1 = y 0 := by intro y; simp [Huband.mean]
  have hm2 : ∀ y : Nat → ℝ, Huband.mean y 0 2 = (y 0 + y 1) / 2 := by intro y; rw [Huband.mean, sum_two]; simp
  have f0 : first8 1 z 0 = 0 := by rw [first8_mean, if_pos (by omega), hz0]
  have f1 : first8 1 z 1 = t := by rw [first8_mean, if_neg (by omega), hm1, f0, hz1, htdef]
  have f2 : first8 1 z 2 = Huband.bias (t / 2) (1 / 2) := by
    rw [first8_mean, if_neg (by omega), hm2, f0, f1, hz2, zero_add]
  have hlt : Huband.bias (t / 2) (1 / 2) < Huband.bias (1 / 4) (1 / 2) := by
    rw [Huband.bias, Huband.bParam, hexp _ (by linarith), Huband.bias, Huband.bParam, hexp _ (by norm_num)]
    exact Real.rpow_lt_rpow_of_exponent_gt (by norm_num) (by norm_num) (by linarith)
  have hge : 1 / 2 ≤ Huband.bias (t / 2) (1 / 2) := by
    rw [Huband.bias, Huband.bParam, hexp _ (by linarith)]
    calc (1 / 2 : ℝ) = (1 / 2) ^ (1 : ℝ) := (Real.rpow_one _).symm
      _ ≤ (1 / 2) ^ (0.02 + 1.96 * (t / 2) : ℝ) := Real.rpow_le_rpow_of_exponent_ge (by norm_num) (by norm_num) (by linarith)
  have hlin : Huband.sLinear 0.35 (Huband.bias (t / 2) (1 / 2)) < Huband.sLinear 0.35 (Huband.bias (1 / 4) (1 / 2)) := by
    unfold Huband.sLinear
    rw [if_neg (by norm_num at *; linarith), if_neg (by norm_num at *; linarith)]
    exact div_lt_div_of_pos_right (by linarith) (by norm_num)
  have mm : ∀ y : Nat → ℝ, Huband.mean y 1 2 = (y 1 + y 2) / 2 := by intro y; rw [Huband.mean, sum_two]; simp
  have hcD : cFinal 8 3 2 1 z 1 = (Huband.sLinear 0.35 t + Huband.sLinear 0.35 (Huband.bias (t / 2) (1 / 2))) / 2 := by
    have : cFinal 8 3 2 1 z 1 = Huband.mean (cTrans 8 3 1 z) 1 2 := rfl
    rw [this, mm, cTrans, if_pos rfl, if_neg (by omega), cTrans, if_pos rfl, if_neg (by omega), f1, f2]
  have hfD : Huband.final 8 3 2 1 z 1 = (Huband.sLinear 0.35 t + Huband.sLinear 0.35 (Huband.bias (1 / 4) (1 / 2))) / 2 := by
    have : Huband.final 8 3 2 1 z 1 = Huband.mean (Huband.transition 8 3 1 z) 1 2 := rfl
    rw [this, mm]
    simp only [Huband.transition]
    rw [if_neg (by omega), if_neg (by omega), hm1, hm2, hz0, hz1, hz2, ← htdef]
    norm_num
  have hc0 : cFinal 8 3 2 1 z 0 = 0 := by
    have : cFinal 8 3 2 1 z 0 = Huband.mean (cTrans 8 3 1 z) 0 1 := rfl
    rw [this, hm1, cTrans, if_pos rfl, if_pos (by omega), hz0]
  have hf0 : Huband.final 8 3 2 1 z 0 = 0 := by
    have : Huband.final 8 3 2 1 z 0 = Huband.mean (Huband.transition 8 3 1 z) 0 1 := rfl
    rw [this, hm1]
    simp only [Huband.transition]
    rw [if_pos (by omega), hz0]
  have hr : ∀ u, In01 u → Huband.sLinear 0.35 u ≤ 1 := fun u hu => (hLinear_range hu).2
  have hl1 := hr t ⟨by linarith, ht1⟩
  have hl2 := hr (Huband.bias (1 / 4) (1 / 2)) (bias_range ⟨by norm_num, by norm_num⟩ ⟨by norm_num, by norm_num⟩)
  refine ⟨⟨8, 3, 2, 1⟩, [0, 2, 3], _, rfl, hx, fitness_tab hp rfl (hzz ▸ hz), ?_⟩
  rw [tab_at, if_pos (show 0 < 2 by omega), ← zOf_getD]
  intro e
  have e := Option.some.inj e
  rw [hzz] at e
  change Huband.objOf 8 2 (cFinal 8 3 2 1 z) 0 = Huband.objOf 8 2 (Huband.final 8 3 2 1 z) 0 at e
  rw [(two_objectives (by omega) _ (by rw [hcD]; linarith)).1, (two_objectives (by omega) _ (by rw [hfD]; linarith)).1, hc0, hf0, hcD, hfD] at e
  linarith

end Verif.Props
