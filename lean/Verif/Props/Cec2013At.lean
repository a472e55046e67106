import Verif.Props.Cec2013
import Verif.Props.Cec2014

/-!
# Properties of `cec2013`: the compositions at their first shift (C151)
-/

set_option autoImplicit false

namespace Verif.Props

open Verif Verif.Cec13 Verif.Spec

theorem cec13_wPos (n : ℕ) (shifts : List ℝ) (x : List ℝ) (q : C13Part × ℕ) : 0 < c13W n shifts x q := by
  unfold c13W c13Weight
  have h0 : 0 ≤ ∑ j ∈ Finset.range n, (x.getD j 0 - c13Shift n shifts q.2 j) ^ 2 := Finset.sum_nonneg (fun _ _ => sq_nonneg _)
  simp only
  by_cases h : ∑ j ∈ Finset.range n, (x.getD j 0 - c13Shift n shifts q.2 j) ^ 2 = 0
  · rw [if_pos h]
    norm_num
  · rw [if_neg h]
    have := lt_of_le_of_ne h0 (Ne.symm h)
    exact mul_pos (one_div_pos.2 (Real.sqrt_pos.2 this)) (Real.exp_pos _)

theorem cec13_partOf {md : Nat → List ℝ} {sd : List ℝ} {id dim : Nat} {c : Ctx} {x : List ℝ} (h : CecReady md sd id dim c x) {p : Part} {q : C13Part}
    (hp : CecPart p) (hq : CecPartIs p q) (hb : 0 ≤ q.2.2.2.2) {k : Nat} (hk : k < 5) :
    -(0.000005 * (dim : ℝ)) ≤ q.2.2.1 * c13At q.1 q.2.1 dim sd (md dim) k x + q.2.2.2.2 ∧
      ((∀ i < dim, x.getD i 0 = sd.getD (k * dim + i) 0) → q.2.2.2.2 = 0 →
        q.2.2.1 * c13At q.1 q.2.1 dim sd (md dim) k x + q.2.2.2.2 ≤ 0.000005 * dim) := by
  obtain ⟨hd, -, -, rfl⟩ := cec13_construct h.made
  have hf : CecFit ⟨dim, sd, md dim⟩ (k * dim) (k * dim * dim) x := by
    refine ⟨cec13_dims hd, h.point.ge, ?_, ?_⟩
    · have h1 : (k + 1) * dim ≤ 5 * dim := Nat.mul_le_mul_right _ hk
      rw [Nat.add_mul, Nat.one_mul] at h1
      exact h1.trans h.shifts
    · have h1 : (k + 2) * (dim * dim) ≤ 6 * (dim * dim) := Nat.mul_le_mul_right _ (by omega)
      rw [Nat.add_mul, ← Nat.mul_assoc] at h1
      show k * dim * dim + dim * dim + dim * dim ≤ _
      have := h.mats
      simp only
      omega
  obtain ⟨q1, q2, q3⟩ := hq
  obtain ⟨e, ⟨v, ev, v1, v2⟩, he⟩ := hp.floor _ _ _ x hf
  have e2 := cec13_at q1 (c := ⟨dim, sd, md dim⟩) (k := k) (flag := p.flag) hf
  have e3 : v = c13At q.1 q.2.1 dim sd (md dim) k x := by
    have := ev.symm.trans e2
    injection this with this
    rw [this, q2]
  rw [← e3, ← q3]
  have hl := hp.low
  simp only at he
  have m1 := mul_le_mul_of_nonneg_left v1 hl
  refine ⟨by linarith, fun hx hb0 => ?_⟩
  have m2 := mul_le_mul_of_nonneg_left (v2 hx) hl
  rw [hb0]
  linarith

theorem cec13_firstBias (k : Nat) (s : List C13Part × ℝ) (hs : c13Comps[k]? = some s) : ∃ p ps, s.1 = p :: ps ∧ p.2.2.2.2 = 0 := by
  have hk : k < 8 := by
    by_contra hk
    rw [List.getElem?_eq_none (by simp [c13Comps]; omega)] at hs
    cases hs
  interval_cases k <;>
    (simp only [c13Comps, List.getElem?_cons_succ, List.getElem?_cons_zero, Option.some.injEq] at hs
     subst hs
     exact ⟨_, _, rfl, rfl⟩)

theorem cec13_forall2Mem {α β : Type} {R : α → β → Prop} {l : List α} {m : List β} (h : List.Forall₂ R l m) : ∀ b ∈ m, ∃ a ∈ l, R a b := by
  induction h with
  | nil => simp
  | cons hab _ ih =>
    intro b hb
    rcases List.mem_cons.1 hb with rfl | hb
    · exact ⟨_, by simp, hab⟩
    · obtain ⟨a, ha, hr⟩ := ih b hb
      exact ⟨a, by simp [ha], hr⟩

/-- C151: at the first shift a composition has its stated optimum, up to the digits of Schwefel's constants and to the other
components, whose share is divided by 10^99; the other shifts are at a distance of at least 1 -/
theorem C151_compositionAt {md : Nat → List ℝ} {sd : List ℝ} {id dim : Nat} {c : Ctx} {x : List ℝ} (h : CecReady md sd id dim c x) (hid : 21 ≤ id)
    (ps : List C13Part) (b : ℝ) (hg : c13Comps[id - 21]? = some (ps, b)) (hx : x = sd.take dim)
    (hfar : ∀ k, 1 ≤ k → k < ps.length → 1 ≤ ∑ j ∈ Finset.range dim, (x.getD j 0 - sd.getD (k * dim + j) 0) ^ 2) :
    ∃ v, Cec13.fitness id c x = .ok [v] ∧
      v ≤ c13Best id + 0.000005 * dim
        + (ps.zipIdx.tail.map (fun q => q.1.2.2.1 * c13At q.1.1 q.1.2.1 dim sd (md dim) q.2 x + q.1.2.2.2.2 + 0.000005 * dim)).sum / 10 ^ 99 := by
  refine ⟨_, C152_composition h hid ps b hg, ?_⟩
  obtain ⟨q, hq, H, -, e3, -, h5⟩ := cec13_forall2 cec13_compsS _ _ hg
  obtain ⟨-, -, -, hbias, hparts⟩ := cec13_comps q (List.mem_of_getElem? hq)
  simp only at H e3 h5
  have hps : ∀ p ∈ ps, 0 ≤ p.2.2.2.2 ∧ ∃ a, CecPart a ∧ CecPartIs a p := by
    intro p hp
    obtain ⟨a, ha, hr⟩ := cec13_forall2Mem H p hp
    exact ⟨hbias _ (by rw [e3]; exact List.mem_map.2 ⟨p, hp, rfl⟩), a, hparts a ha, hr⟩
  have hb : b = c13Best id := by
    obtain ⟨-, h1, h2, -⟩ := cec13_construct h.made
    obtain ⟨hb, -⟩ := cec13_compBest _ _ hg
    simp only at hb
    rw [hb, ← cec13_biases h1 h2]
    congr 1
    omega
  obtain ⟨p, rest, hpr, hb0⟩ := cec13_firstBias _ _ hg
  simp only at hpr
  subst hpr
  have hx' : ∀ i < dim, x.getD i 0 = sd.getD (0 * dim + i) 0 := by
    intro i hi
    rw [hx, List.getD_eq_getElem?_getD, List.getD_eq_getElem?_getD, List.getElem?_take_of_lt hi, Nat.zero_mul, Nat.zero_add]
  have hm := cec14_meanHigh (E := 0.000005 * (dim : ℝ)) (M := 10 ^ 99) (w := c13W dim sd x)
    (f := fun q => q.1.2.2.1 * c13At q.1.1 q.1.2.1 dim sd (md dim) q.2 x + q.1.2.2.2.2) (p, 0) (rest.zipIdx 1) (by positivity)
    (by
      unfold c13W c13Weight
      simp only
      rw [if_pos]
      · norm_num
      · refine Finset.sum_eq_zero (fun j hj => ?_)
        rw [hx' j (Finset.mem_range.1 hj)]
        unfold c13Shift
        simp)
    (by positivity)
    (by
      obtain ⟨p1, a, p2, p3⟩ := hps p (by simp)
      exact (cec13_partOf h p2 p3 p1 (by norm_num)).2 hx' hb0)
    (fun q hq => by
      refine ⟨cec13_wPos _ _ _ _, ?_⟩
      have hd1 := hfar q.2 (List.le_snd_of_mem_zipIdx hq) (by
        have := List.snd_lt_add_of_mem_zipIdx hq
        simp only [List.length_cons]
        omega)
      unfold c13W c13Weight c13Shift
      simp only
      rw [if_neg (by linarith)]
      have g1 : 1 / √(∑ j ∈ Finset.range dim, (x.getD j 0 - sd.getD (q.2 * dim + j) 0) ^ 2) ≤ 1 := by
        rw [div_le_one (by positivity)]
        exact Real.one_le_sqrt.2 hd1
      refine mul_le_one₀ g1 (Real.exp_pos _).le (Real.exp_le_one_iff.2 ?_)
      refine div_nonpos_of_nonpos_of_nonneg (by linarith) (by positivity))
    (fun q hq => by
      obtain ⟨p1, a, p2, p3⟩ := hps q.1 (List.mem_cons_of_mem _ (List.fst_mem_of_mem_zipIdx hq))
      exact (cec13_partOf h p2 p3 p1 (by
        have := List.snd_lt_add_of_mem_zipIdx hq
        simp only [List.length_cons] at h5
        omega)).1)
  unfold c13Comp
  rw [List.zipIdx_cons, List.tail_cons, hb]
  linarith

/-- the hypotheses can be met: problem 22 has three components -/
example : CecReady cec13Quarter [0, 0, 5, 5, 9, 9, 0, 0, 0, 0] 22 2 ⟨2, [0, 0, 5, 5, 9, 9, 0, 0, 0, 0], cec13Quarter 2⟩ [0, 0] ∧
    [0, 0] = ([0, 0, 5, 5, 9, 9, 0, 0, 0, 0] : List ℝ).take 2 ∧
    ∀ k, 1 ≤ k → k < 3 → 1 ≤ ∑ j ∈ Finset.range 2, (([0, 0] : List ℝ).getD j 0 - ([0, 0, 5, 5, 9, 9, 0, 0, 0, 0] : List ℝ).getD (k * 2 + j) 0) ^ 2 := by
  refine ⟨⟨rfl, by simp, by simp [cec13Quarter], rfl⟩, rfl, fun k h1 h2 => ?_⟩
  interval_cases k <;> norm_num [Finset.sum_range_succ]

end Verif.Props
