import Verif.Proof.HyCon3d
import Verif.Props.Hypervolume

/-!
# C60, C61: contributions in two and three dimensions

HyCon3D returns the volume only covered by each point if no two points share their first coordinate (it is wrong
otherwise, see `C60_wrong_contribution`).
-/

set_option autoImplicit false

namespace Verif.Props

open Verif Verif.Spec Verif.Hv

variable {low : ℝ}

/-- no two points share their first coordinate -/
def ApartX (pts : List (List ℝ)) : Prop := pts.Pairwise (fun a b => a.getD 0 0 ≠ b.getD 0 0)

theorem exclVol_only {pts : List (List ℝ)} {r : List ℝ} {i : Nat} (hi : i < pts.length) :
    exclVol 3 pts r i = Vol r pts i (cZ r) := by
  rw [exclVol_eq hi, Vol_all, ← only_closed]
  have : pts.getD i [] = pts[i] := by simp [List.getD_eq_getElem?_getD, hi]
  rw [this]

/-- reordering the points -/
theorem exclVol_perm {d : Nat} {P pts : List (List ℝ)} {r : List ℝ} {i k : Nat} {p : List ℝ} (h : P.Perm pts)
    (hi : P[i]? = some p) (hk : pts[k]? = some p) : exclVol d P r i = exclVol d pts r k := by
  obtain ⟨hi1, hi2⟩ := List.getElem?_eq_some_iff.mp hi
  obtain ⟨hk1, hk2⟩ := List.getElem?_eq_some_iff.mp hk
  have h1 := List.getElem_cons_eraseIdx_perm hi1
  have h2 := List.getElem_cons_eraseIdx_perm hk1
  rw [hi2] at h1
  rw [hk2] at h2
  have h3 : (P.eraseIdx i).Perm (pts.eraseIdx k) := (h1.trans (h.trans h2.symm)).cons_inv
  unfold exclVol
  rw [hvol_congr (cov_perm h), hvol_congr (cov_perm h3)]

theorem dimOk_below {d : Nat} {pts : List (List ℝ)} {r : List ℝ} (h : Below d pts r) : dimOk d pts r = true := by
  unfold dimOk
  simp only [Bool.and_eq_true, beq_iff_eq, List.all_eq_true]
  exact ⟨h.1, fun p hp => (h.2 p hp).1⟩

/-- both variants, with and without sorting -/
theorem hy3_ok {srt : Srt ℝ} (hsrt : ValidSort srt)
    {srt2 : (Node ℝ → Node ℝ → Bool) → List (Node ℝ) → List (Node ℝ)} {big : ℝ} {sorting : Bool}
    {pts : List (List ℝ)} {r : List ℝ} (h : Below 3 pts r) (hne : pts ≠ [])
    (hlow : ∀ p ∈ pts, low < p.getD 0 0 ∧ low < p.getD 1 0) (hap : ApartX pts)
    (hs : if sorting then ValidSort srt2 else pts.Pairwise (fun a b => a.getD 2 0 ≤ b.getD 2 0)) :
    hv3dContributions (RN low) srt srt2 big sorting pts r = .ok ((List.range pts.length).map (exclVol 3 pts r)) := by
  have hpairs : ∃ prs, hyPairs (RN low) srt2 sorting pts = .ok prs ∧ prs.Perm pts.zipIdx ∧
      prs.Pairwise (fun a b => cZ a.1 ≤ cZ b.1) := by
    cases sorting with
    | false =>
      refine ⟨pts.zipIdx, rfl, List.Perm.refl _, ?_⟩
      simp only [Bool.false_eq_true, if_false] at hs
      have h1 : (pts.zipIdx.map Prod.fst).Pairwise (fun a b => cZ a ≤ cZ b) := by rw [List.zipIdx_map_fst]; exact hs
      exact (List.pairwise_map (f := Prod.fst) (R := fun a b => cZ a ≤ cZ b)).mp h1
    | true =>
      simp only [if_true] at hs
      have hswo : swoOn (fun a b : Node ℝ => (RN low).lt ((RN low).at a.1 2) ((RN low).at b.1 2)) pts.zipIdx = true :=
        swoOn_of_key (fun a => a.1.getD 2 0) (fun a _ b _ => decide_eq_true_iff)
      obtain ⟨s, h1, h2, h3⟩ := stdSort_sat hs hswo
      exact ⟨s, h1, h2, h3.imp (fun {a b} h => not_lt.mp (of_decide_eq_false h))⟩
  obtain ⟨prs, h1, h2, h3⟩ := hpairs
  have hPperm : (prs.map (·.1)).Perm pts := by
    have := h2.map Prod.fst
    rwa [List.zipIdx_map_fst] at this
  have hget : ∀ m, m < (prs.map (·.1)).length → (prs.map (·.1)).getD m [] ∈ pts := by
    intro m hm
    rw [List.getD_eq_getElem?_getD, List.getElem?_eq_getElem hm]
    exact hPperm.mem_iff.mp (List.getElem_mem hm)
  have hpw : ∀ {R : List ℝ → List ℝ → Prop}, (prs.map (·.1)).Pairwise R → ∀ m m', m < m' → m' < (prs.map (·.1)).length →
      R ((prs.map (·.1)).getD m []) ((prs.map (·.1)).getD m' []) := by
    intro R hR m m' hm hm'
    rw [List.getD_eq_getElem?_getD, List.getElem?_eq_getElem (by omega), List.getD_eq_getElem?_getD,
      List.getElem?_eq_getElem hm']
    exact List.pairwise_iff_getElem.mp hR m m' (by omega) hm' hm
  refine hv3dContributions_ok (dimOk_below h) h1 h2 ⟨?_, ?_, ?_, ?_, ?_⟩ (exclVol 3 pts r) ?_
    (C60_wfg hsrt le_rfl (by norm_num) h (Or.inl rfl))
  · intro m hm
    have := (h.2 _ (hget m hm)).2
    exact ⟨this 0 (by norm_num), this 1 (by norm_num), this 2 (by norm_num)⟩
  · intro m hm
    exact hlow _ (hget m hm)
  · intro m m' hm hm'
    rcases hm.lt_or_eq with hm | rfl
    · exact hpw (R := fun a b => cZ a ≤ cZ b) (List.pairwise_map.mpr h3) m m' hm hm'
    · exact le_rfl
  · intro m m' hm hm'
    have hap' : (prs.map (·.1)).Pairwise (fun a b => cX a ≠ cX b) :=
      (hPperm.pairwise_iff (fun {a b} (h : cX a ≠ cX b) => h.symm)).mpr hap
    exact hpw hap' m m' hm hm'
  · intro hc
    rw [hc] at hPperm
    exact hne hPperm.nil_eq.symm
  · intro i e he
    have hi : i < (prs.map (·.1)).length := by simpa using (List.getElem?_eq_some_iff.mp he).1
    rw [← exclVol_only hi]
    have hk : pts[e.2]? = some e.1 := by
      have : e ∈ pts.zipIdx := h2.mem_iff.mp (List.mem_of_getElem? he)
      exact List.mem_zipIdx_iff_getElem?.mp this
    exact exclVol_perm hPperm (by rw [List.getElem?_map, he]; rfl) hk

/-- **C60.** `hv3d().contributions` (HyCon3D): the volume only covered by each point, for points in any position
(dominated points and points on the border included) of which no two share their first coordinate. -/
theorem C60_hycon3d {srt : Srt ℝ} (hsrt : ValidSort srt)
    {srt2 : (Node ℝ → Node ℝ → Bool) → List (Node ℝ) → List (Node ℝ)} (hsrt2 : ValidSort srt2) {big : ℝ}
    {pts : List (List ℝ)} {r : List ℝ} (h : Below 3 pts r) (hne : pts ≠ []) (hlow : AboveLow low pts) (hap : ApartX pts) :
    hv3dContributions (RN low) srt srt2 big true pts r = .ok ((List.range pts.length).map (exclVol 3 pts r)) := by
  refine hy3_ok hsrt h hne (fun p hp => ?_) hap (by simpa using hsrt2)
  have hl := (h.2 p hp).1
  have hg : ∀ i : Nat, i < 3 → low < p.getD i 0 := by
    intro i hi
    rw [List.getD_eq_getElem?_getD, List.getElem?_eq_getElem (by omega)]
    exact hlow p hp _ (List.getElem_mem _)
  exact ⟨hg 0 (by norm_num), hg 1 (by norm_num)⟩

theorem hvol_flat {pts : List (List ℝ)} {r : List ℝ} (hr : r.length = 2) (f : List ℝ → List ℝ)
    (hf : f = fun p => [p.getD 0 0, p.getD 1 0, 0]) : hvol 3 (pts.map f) (r ++ [1]) = hvol 2 pts r := by
  have hr2 : (r ++ [(1 : ℝ)]).getD 2 0 = 1 := by
    rw [List.getD_eq_getElem?_getD, List.getElem?_append_right (by omega)]; simp [hr]
  rw [hvol_succ (z := 0) (by
    intro p hp
    obtain ⟨q, -, rfl⟩ := List.mem_map.mp hp
    rw [hf]; rfl) (by rw [hr2]; norm_num), hr2, sub_zero, one_mul]
  unfold hvol
  congr 2
  have hri : ∀ i : Fin 2, pt 2 (r ++ [(1 : ℝ)]) i = pt 2 r i := by
    intro i
    have hi := i.2
    simp only [pt]
    rw [List.getD_eq_getElem?_getD, List.getElem?_append_left (by omega), ← List.getD_eq_getElem?_getD]
  ext x
  rw [mem_cov, mem_cov]
  refine and_congr (forall_congr' fun i => by rw [hri]) ?_
  constructor
  · rintro ⟨p, hp, h⟩
    obtain ⟨q, hq, rfl⟩ := List.mem_map.mp hp
    refine ⟨q, hq, fun i => ?_⟩
    have := h i
    rw [hf] at this
    fin_cases i <;> exact this
  · rintro ⟨q, hq, h⟩
    refine ⟨_, List.mem_map.mpr ⟨q, hq, rfl⟩, fun i => ?_⟩
    have := h i
    rw [hf]
    fin_cases i <;> exact this

/-- **C60.** `hv2d().contributions`: the area only covered by each point, for points of which no two share their first
coordinate. -/
theorem C60_hv2d {srt : Srt ℝ} (hsrt : ValidSort srt)
    {srt2 : (Node ℝ → Node ℝ → Bool) → List (Node ℝ) → List (Node ℝ)} {big : ℝ}
    {pts : List (List ℝ)} {r : List ℝ} (h : Below 2 pts r) (hne : pts ≠ []) (hlow : AboveLow low pts) (hap : ApartX pts) :
    hv2dContributions (RN low) srt srt2 big pts r = .ok ((List.range pts.length).map (exclVol 2 pts r)) := by
  unfold hv2dContributions
  rw [dimOk_below h]
  simp only [Bool.not_true, Bool.false_eq_true, if_false]
  obtain ⟨f, hf⟩ : ∃ f : List ℝ → List ℝ, f = fun p => [p.getD 0 0, p.getD 1 0, 0] := ⟨_, rfl⟩
  change hv3dContributions (RN low) srt srt2 big false (pts.map (fun p => [p.getD 0 0, p.getD 1 0, 0])) (r ++ [1]) = _
  rw [← hf]
  have hr := h.1
  have hrg : ∀ i : Nat, i < 2 → (r ++ [(1 : ℝ)]).getD i 0 = r.getD i 0 := by
    intro i hi
    rw [List.getD_eq_getElem?_getD, List.getElem?_append_left (by omega), ← List.getD_eq_getElem?_getD]
  have hr2 : (r ++ [(1 : ℝ)]).getD 2 0 = 1 := by
    rw [List.getD_eq_getElem?_getD, List.getElem?_append_right (by omega)]; simp [hr]
  rw [hy3_ok hsrt]
  · congr 1
    rw [List.length_map]
    apply List.map_congr_left
    intro i hi
    rw [List.mem_range] at hi
    unfold exclVol
    rw [hvol_flat hr f hf, ← hvol_flat (pts := pts.eraseIdx i) hr f hf, List.eraseIdx_map]
  · refine ⟨by simp [hr], fun p hp => ?_⟩
    obtain ⟨q, hq, rfl⟩ := List.mem_map.mp hp
    have := (h.2 q hq).2
    rw [hf]
    refine ⟨rfl, fun i hi => ?_⟩
    interval_cases i
    · rw [hrg 0 (by norm_num)]; exact this 0 (by norm_num)
    · rw [hrg 1 (by norm_num)]; exact this 1 (by norm_num)
    · rw [hr2]; simp
  · simpa using hne
  · intro p hp
    obtain ⟨q, hq, rfl⟩ := List.mem_map.mp hp
    have hl := (h.2 q hq).1
    have hg : ∀ i : Nat, i < 2 → low < q.getD i 0 := by
      intro i hi
      rw [List.getD_eq_getElem?_getD, List.getElem?_eq_getElem (by omega)]
      exact hlow q hq _ (List.getElem_mem _)
    rw [hf]
    exact ⟨hg 0 (by norm_num), hg 1 (by norm_num)⟩
  · unfold ApartX
    rw [List.pairwise_map, hf]
    exact hap
  · simp only [Bool.false_eq_true, if_false]
    rw [List.pairwise_map, hf]
    exact List.pairwise_of_forall (fun _ _ => le_rfl)

theorem best_ok {srt : Srt ℝ} (hsrt : ValidSort srt)
    {srt2 : (Node ℝ → Node ℝ → Bool) → List (Node ℝ) → List (Node ℝ)} (hsrt2 : ValidSort srt2) {big : ℝ} {d : Nat}
    {pts : List (List ℝ)} (hp : SameDim d pts) {r : List ℝ} (h : Below d pts r) (hlow : AboveLow low pts)
    (hap : d ≤ 3 → ApartX pts) :
    bestContributions (RN low) srt srt2 big pts r = .ok ((List.range pts.length).map (exclVol d pts r)) := by
  obtain ⟨hne, hd, hlen⟩ := hp
  have hr := h.1
  unfold bestContributions
  by_cases h2 : d = 2
  · subst h2
    rw [if_pos hr]
    exact C60_hv2d hsrt h hne hlow (hap (by norm_num))
  · by_cases h3 : d = 3
    · subst h3
      rw [if_neg (by omega), if_pos hr]
      exact C60_hycon3d hsrt hsrt2 h hne hlow (hap le_rfl)
    · rw [if_neg (by omega), if_neg (by omega)]
      exact C60_wfg hsrt le_rfl (by omega) h (Or.inl rfl)

/-- **C60 (part).** `hypervolume::contributions(r)` with the default algorithm, in every dimension: the volume only
covered by each point, provided that in two and three dimensions no two points share their first coordinate. Missing:
points that share it, for which the code is wrong (`C60_wrong_contribution`) or undefined (`C60_undefined`). -/
theorem C60_contributions_apart_partial {srt : Srt ℝ} (hsrt : ValidSort srt)
    {srt2 : (Node ℝ → Node ℝ → Bool) → List (Node ℝ) → List (Node ℝ)} (hsrt2 : ValidSort srt2) {big : ℝ} {d : Nat}
    {pts : List (List ℝ)} (hp : SameDim d pts) {r : List ℝ} (h : Below d pts r)
    (hb : ∀ p ∈ pts, ∃ i : Nat, i < d ∧ p.getD i 0 < r.getD i 0) (hlow : AboveLow low pts) (hap : d ≤ 3 → ApartX pts) :
    hvContributions (RN low) true (bestAlgo (RN low) srt srt2 big r) pts r =
      .ok ((List.range pts.length).map (exclVol d pts r)) := by
  have hc := chk_real (low := low) (srt := srt) (srt2 := srt2) (big := big) hp r
  have hbest := best_ok hsrt hsrt2 (big := big) hp h hlow hap
  unfold hvContributions verifyIf
  simp only [if_true]
  rw [hc.ok_iff.mpr ⟨h, hb⟩]
  simp only [Outcome.bind_ok]
  match pts, hp, h, hbest with
  | [], hp, _, _ => exact absurd rfl hp.1
  | [p], hp, h, _ =>
    simp only
    rw [rn_volumeV (h.2 p (by simp)).1 (h.2 p (by simp)).2]
    simp [exclVol, hvol_nil]
  | p :: q :: l, hp, h, hbest => exact hbest

/-- **C61 (part).** `least_contributor(r)` and `greatest_contributor(r)` in every dimension, under the condition of
`C60_contributions_apart_partial`. -/
theorem C61_apart_partial {srt : Srt ℝ} (hsrt : ValidSort srt)
    {srt2 : (Node ℝ → Node ℝ → Bool) → List (Node ℝ) → List (Node ℝ)} (hsrt2 : ValidSort srt2) {big : ℝ} {d : Nat}
    {pts : List (List ℝ)} (hp : SameDim d pts) {r : List ℝ} (h : Below d pts r)
    (hb : ∀ p ∈ pts, ∃ i : Nat, i < d ∧ p.getD i 0 < r.getD i 0) (hlow : AboveLow low pts) (hap : d ≤ 3 → ApartX pts) :
    (∃ k < pts.length, hvLeast (RN low) true (bestAlgo (RN low) srt srt2 big r) pts r = .ok k ∧
      ∀ j < pts.length, exclVol d pts r k ≤ exclVol d pts r j) ∧
    (∃ k < pts.length, hvGreatest (RN low) true (bestAlgo (RN low) srt srt2 big r) pts r = .ok k ∧
      ∀ j < pts.length, exclVol d pts r j ≤ exclVol d pts r k) := by
  have hc := chk_real (low := low) (srt := srt) (srt2 := srt2) (big := big) hp r
  have hcon := best_ok hsrt hsrt2 (big := big) hp h hlow hap
  obtain ⟨⟨k, v, h1, h2, h3⟩, ⟨k', v', h1', h2', h3'⟩⟩ := C61_extreme_partial (low := low) hcon (by simp) hp.1
  have get : ∀ (j : Nat) (w : ℝ), ((List.range pts.length).map (exclVol d pts r))[j]? = some w →
      j < pts.length ∧ w = exclVol d pts r j := by
    intro j w hj
    obtain ⟨hlt, he⟩ := List.getElem?_eq_some_iff.mp hj
    simp only [List.length_map, List.length_range] at hlt
    simp only [List.getElem_map, List.getElem_range] at he
    exact ⟨hlt, he.symm⟩
  have put : ∀ j < pts.length, ((List.range pts.length).map (exclVol d pts r))[j]? = some (exclVol d pts r j) := by
    intro j hj
    rw [List.getElem?_map, List.getElem?_range hj]; rfl
  constructor
  · obtain ⟨g1, g2⟩ := get k v h2
    refine ⟨k, g1, ?_, fun j hj => g2 ▸ (h3 j _ (put j hj)).1⟩
    unfold hvLeast verifyIf
    simp only [if_true]
    rw [hc.ok_iff.mpr ⟨h, hb⟩]
    simp only [Outcome.bind_ok]
    split
    · rename_i hlen
      have : k = 0 := by omega
      rw [this]
    · exact h1
  · obtain ⟨g1, g2⟩ := get k' v' h2'
    refine ⟨k', g1, ?_, fun j hj => g2 ▸ (h3' j _ (put j hj)).1⟩
    unfold hvGreatest verifyIf
    simp only [if_true]
    rw [hc.ok_iff.mpr ⟨h, hb⟩]
    simp only [Outcome.bind_ok]
    exact h1'

/-- Non-vacuity: four mutually non-dominated points, one of them on the border. -/
example : Below 3 [[1, 4, 1], [2, 3, 0], [3, 1, 1], [4, 0, 2]] [4, 5, 5] ∧
    ApartX [[1, 4, 1], [2, 3, 0], [3, 1, 1], [4, 0, 2]] ∧ AboveLow (-1) [[1, 4, 1], [2, 3, 0], [3, 1, 1], [4, 0, 2]] := by
  refine ⟨⟨rfl, fun p hp => ?_⟩, ?_, ?_⟩
  · simp only [List.mem_cons, List.not_mem_nil, or_false] at hp
    rcases hp with rfl | rfl | rfl | rfl <;> refine ⟨rfl, fun i hi => ?_⟩ <;> interval_cases i <;> norm_num
  · simp [ApartX]
  · intro p hp a ha
    simp only [List.mem_cons, List.not_mem_nil, or_false] at hp
    rcases hp with rfl | rfl | rfl | rfl <;> simp only [List.mem_cons, List.not_mem_nil, or_false] at ha <;>
      rcases ha with rfl | rfl | rfl <;> norm_num

/-- The algorithm at work, every kind of neighbour included: the values are the differences of volumes. -/
example : bestContributions QN insSort insSort 1000000 [[1, 4, 2], [2, 3, 0], [3, 1, 1], [5/2, 1/2, 4], [1/2, 0, 9/2]] [4, 5, 5] =
      .ok [5/2, 33/4, 6, 7/8, 35/8] := by decide +kernel

end Verif.Props
