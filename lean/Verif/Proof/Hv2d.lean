import Verif.Model.Hypervolume
import Verif.Proof.HvMeasure
import Mathlib.Tactic.IntervalCases

/-!
# The two-dimensional sweep
-/

set_option autoImplicit false

namespace Verif.Hv

open Verif Verif.Spec

variable {low : ℝ}

/-- exact arithmetic on the reals -/
noncomputable abbrev RN (low : ℝ) : Num ℝ := Num.ofField ℝ low

theorem rn_at (p : List ℝ) (i : Nat) : (RN low).at p i = p.getD i 0 := rfl

theorem rn_max (a b : ℝ) : (RN low).max a b = max a b := by
  unfold Num.max
  simp only [Num.ofField]
  by_cases h : a < b
  · simp [h, max_eq_right h.le]
  · simp [h, max_eq_left (not_lt.mp h)]

theorem foldl_mul (f : Nat → ℝ) (l : List Nat) (a : ℝ) :
    l.foldl (fun v i => v * f i) a = a * (l.map f).prod := by
  induction l generalizing a with
  | nil => simp
  | cons x l ih => simp only [List.foldl_cons, ih, List.map_cons, List.prod_cons]; ring

theorem prod_range_list (f : Nat → ℝ) (n : Nat) : ((List.range n).map f).prod = ∏ i ∈ Finset.range n, f i := by
  induction n with
  | zero => simp
  | succ n ih => rw [List.range_succ, List.map_append, List.prod_append, ih, Finset.prod_range_succ]; simp

theorem rn_volume {p r : List ℝ} {d : Nat} (h : ∀ i : Nat, i < d → p.getD i 0 ≤ r.getD i 0) :
    volumeBetween (RN low) p r d = hvol d [p] r := by
  rw [hvol_single_range h]
  unfold volumeBetween
  have e : (List.range d).reverse.foldl (fun v i => (RN low).mul v ((RN low).sub ((RN low).at r i) ((RN low).at p i)))
      (RN low).one = ∏ i ∈ Finset.range d, (r.getD i 0 - p.getD i 0) := by
    change (List.range d).reverse.foldl (fun v i => v * (r.getD i 0 - p.getD i 0)) 1 = _
    rw [foldl_mul, List.map_reverse, List.prod_reverse, prod_range_list, one_mul]
  simp only
  have hn : 0 ≤ ∏ i ∈ Finset.range d, (r.getD i 0 - p.getD i 0) :=
    Finset.prod_nonneg (fun i hi => sub_nonneg.mpr (h i (Finset.mem_range.mp hi)))
  generalize (List.range d).reverse.foldl (fun v i => (RN low).mul v ((RN low).sub ((RN low).at r i) ((RN low).at p i)))
      (RN low).one = v at e ⊢
  rw [e]
  have hf : (RN low).lt (∏ i ∈ Finset.range d, (r.getD i 0 - p.getD i 0)) (RN low).zero = false := by
    simpa [Num.ofField] using hn
  rw [hf]
  simp

theorem rn_volumeV {p r : List ℝ} {d : Nat} (hp : p.length = d) (h : ∀ i : Nat, i < d → p.getD i 0 ≤ r.getD i 0) :
    volumeBetweenV (RN low) p r = hvol d [p] r := by
  rw [hvol_single_range h]
  unfold volumeBetweenV
  rw [hp]
  have e : (List.range d).foldl (fun v i => (RN low).mul v ((RN low).sub ((RN low).at p i) ((RN low).at r i)))
      (RN low).one = ∏ i ∈ Finset.range d, (p.getD i 0 - r.getD i 0) := by
    change (List.range d).foldl (fun v i => v * (p.getD i 0 - r.getD i 0)) 1 = _
    rw [foldl_mul, prod_range_list, one_mul]
  simp only
  generalize (List.range d).foldl (fun v i => (RN low).mul v ((RN low).sub ((RN low).at p i) ((RN low).at r i)))
      (RN low).one = v at e ⊢
  rw [e]
  have habs : |∏ i ∈ Finset.range d, (p.getD i 0 - r.getD i 0)| = ∏ i ∈ Finset.range d, (r.getD i 0 - p.getD i 0) := by
    rw [Finset.abs_prod]
    refine Finset.prod_congr rfl (fun i hi => ?_)
    rw [abs_of_nonpos (sub_nonpos.mpr (h i (Finset.mem_range.mp hi)))]; ring
  rw [← habs]
  simp only [RN, Num.ofField, decide_eq_true_eq]
  split
  · rename_i hlt; rw [abs_of_neg hlt]
  · rename_i hlt; rw [abs_of_nonneg (not_lt.mp hlt)]

theorem hv2dLoop_eq {r : List ℝ} (ps : List (List ℝ)) (h w y : ℝ) (hw : 0 ≤ w) (hy : y ≤ r.getD 1 0)
    (hps : ∀ p ∈ ps, p.getD 0 0 ≤ r.getD 0 0 ∧ p.getD 1 0 ≤ r.getD 1 0 ∧ y ≤ p.getD 1 0)
    (hs : ps.Pairwise (fun a b => a.getD 1 0 ≤ b.getD 1 0)) :
    hv2dLoop (RN low) r h w y ps = h + hvol 2 ([r.getD 0 0 - w, y] :: ps) r := by
  induction ps generalizing h w y with
  | nil =>
    unfold hv2dLoop
    rw [hvol_single_range]
    · simp only [rn_at, Finset.prod_range_succ, Finset.prod_range_zero]
      simp [Num.ofField]
      ring
    · intro i hi
      interval_cases i
      · simp [hw]
      · simpa using hy
  | cons p ps ih =>
    obtain ⟨hp0, hp1, hpy⟩ := hps p (List.mem_cons_self ..)
    rw [List.pairwise_cons] at hs
    unfold hv2dLoop
    rw [rn_max, rn_at, rn_at, rn_at]
    change hv2dLoop (RN low) r (h + (p.getD 1 0 - y) * w) (max w (r.getD 0 0 - p.getD 0 0)) (p.getD 1 0) ps = _
    rw [ih _ _ _ (le_trans hw (le_max_left _ _)) hp1 (fun q hq =>
      ⟨(hps q (List.mem_cons_of_mem _ hq)).1, (hps q (List.mem_cons_of_mem _ hq)).2.1, hs.1 q hq⟩) hs.2]
    have hslab := hvol_slab (d := 1) (P := [[r.getD 0 0 - w, y]]) (P' := [[r.getD 0 0 - w, p.getD 1 0]])
      (L := p :: ps) (r := r) (z := y) (z' := p.getD 1 0) (by simp) (by simp)
      (by
        apply Set.Subset.antisymm <;> apply cov_sub <;> intro q hq <;> simp only [List.mem_singleton] at hq <;> subst hq
        · exact ⟨_, List.mem_singleton.mpr rfl, by intro i hi; interval_cases i; simp⟩
        · exact ⟨_, List.mem_singleton.mpr rfl, by intro i hi; interval_cases i; simp⟩)
      hpy hp1 (by
        intro q hq
        rcases List.mem_cons.mp hq with rfl | hq
        · exact le_rfl
        · exact hs.1 q hq)
    have e1 : hvol 1 [[r.getD 0 0 - w, y]] r = w := by
      rw [hvol_single_range]
      · simp [Finset.prod_range_succ]
      · intro i hi; interval_cases i; simp [hw]
    simp only [List.singleton_append] at hslab
    rw [hslab, e1]
    have e2 : hvol 2 ([r.getD 0 0 - max w (r.getD 0 0 - p.getD 0 0), p.getD 1 0] :: ps) r =
        hvol 2 ([r.getD 0 0 - w, p.getD 1 0] :: p :: ps) r := by
      apply hvol_congr
      apply Set.Subset.antisymm <;> apply cov_sub
      · intro q hq
        rcases List.mem_cons.mp hq with rfl | hq
        · rcases le_total w (r.getD 0 0 - p.getD 0 0) with hle | hle
          · refine ⟨p, by simp, ?_⟩
            intro i hi
            interval_cases i
            · simp only [List.getD_cons_zero]
              rw [max_eq_right hle]; linarith
            · simp
          · refine ⟨_, List.mem_cons_self .., ?_⟩
            intro i hi
            interval_cases i
            · simp only [List.getD_cons_zero]
              rw [max_eq_left hle]
            · simp
        · exact ⟨q, by simp [hq], fun i hi => le_rfl⟩
      · intro q hq
        rcases List.mem_cons.mp hq with rfl | hq
        · refine ⟨_, List.mem_cons_self .., ?_⟩
          intro i hi
          interval_cases i
          · have := le_max_left w (r.getD 0 0 - p.getD 0 0)
            simp only [List.getD_cons_zero]
            linarith
          · simp
        · rcases List.mem_cons.mp hq with rfl | hq
          · refine ⟨_, List.mem_cons_self .., ?_⟩
            intro i hi
            interval_cases i
            · have := le_max_right w (r.getD 0 0 - q.getD 0 0)
              simp only [List.getD_cons_zero]
              linarith
            · simp
          · exact ⟨q, by simp [hq], fun i hi => le_rfl⟩
    rw [e2]
    ring

theorem hv2d_ok {srt : Srt ℝ} (hsrt : ValidSort srt) {pts : List (List ℝ)} {r : List ℝ} (h : Below 2 pts r) :
    hv2d (RN low) srt true pts r = .ok (hvol 2 pts r) := by
  obtain ⟨hr, hp⟩ := h
  have hd : dimOk 2 pts r = true := by
    unfold dimOk
    simp only [Bool.and_eq_true, beq_iff_eq, List.all_eq_true]
    exact ⟨hr, fun p h => (hp p h).1⟩
  unfold hv2d
  simp only [hd, Bool.not_true, Bool.false_eq_true, if_false]
  match pts, hp with
  | [], _ => simp [hvol_nil, Num.ofField]
  | [p], hp => simp only; rw [rn_volume (hp p (by simp)).2]
  | p :: q :: ps, hp =>
    simp only [sortIf, if_true]
    have hswo : swoOn (fun a b : List ℝ => (RN low).lt ((RN low).at a 1) ((RN low).at b 1)) (p :: q :: ps) = true :=
      swoOn_of_key (fun a => a.getD 1 0) (fun a _ b _ => decide_eq_true_iff)
    obtain ⟨s, hs, hperm, hsorted⟩ := stdSort_sat hsrt hswo
    rw [hs]
    simp only [Outcome.bind_ok]
    have hsort : s.Pairwise (fun a b => a.getD 1 0 ≤ b.getD 1 0) := hsorted.imp (fun {a b} h => by
      exact not_lt.mp (of_decide_eq_false h))
    cases s with
    | nil => simp at hperm
    | cons t ts =>
      simp only
      rw [List.pairwise_cons] at hsort
      have hmem : ∀ x ∈ t :: ts, x ∈ p :: q :: ps := fun x hx => hperm.mem_iff.mp hx
      have ht := (hp t (hmem t (by simp))).2
      rw [rn_at, rn_at, rn_at]
      change Outcome.ok (hv2dLoop (RN low) r 0 (r.getD 0 0 - t.getD 0 0) (t.getD 1 0) ts) = _
      rw [hv2dLoop_eq]
      · rw [zero_add]
        congr 1
        rw [← hvol_congr (cov_perm hperm)]
        apply hvol_congr
        apply Set.Subset.antisymm <;> apply cov_sub
        · intro x hx
          rcases List.mem_cons.mp hx with rfl | hx
          · refine ⟨t, by simp, ?_⟩
            intro i hi
            interval_cases i <;> simp
          · exact ⟨x, by simp [hx], fun _ _ => le_rfl⟩
        · intro x hx
          rcases List.mem_cons.mp hx with rfl | hx
          · refine ⟨_, List.mem_cons_self .., ?_⟩
            intro i hi
            interval_cases i <;> simp
          · exact ⟨x, by simp [hx], fun _ _ => le_rfl⟩
      · exact sub_nonneg.mpr (ht 0 (by omega))
      · exact ht 1 (by omega)
      · intro x hx
        have := (hp x (hmem x (by simp [hx]))).2
        exact ⟨this 0 (by omega), this 1 (by omega), hsort.1 x hx⟩
      · exact hsort.2

end Verif.Hv
