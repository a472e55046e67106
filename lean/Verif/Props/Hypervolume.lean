import Verif.Model.HyCon3d
import Verif.Proof.Wfg
import Verif.Base.Check
import Mathlib.Data.Rat.Floor

/-!
# Hypervolume

C57 (two dimensions), C58 (three dimensions), C59 (WFG), C60 (exclusive contributions), C61 (extreme contributors),
C62 (checks of the input), C63 (order of the points), C77 (default reference point).

The volumes are over the reals with exact arithmetic. `low` stands for the most negative double.
-/

set_option autoImplicit false

namespace Verif.Props

open Verif Verif.Spec Verif.Hv

variable {low : ℝ}

/-- All points are above the most negative double. -/
def AboveLow (low : ℝ) (pts : List (List ℝ)) : Prop := ∀ p ∈ pts, ∀ a ∈ p, low < a

theorem below_lok {d : Nat} {pts : List (List ℝ)} {r : List ℝ} (h : Below d pts r) :
    LOk (fun _ => True) d pts r := fun p hp => ⟨(h.2 p hp).1, (h.2 p hp).2, fun _ _ => trivial⟩

theorem below_lok_low {d : Nat} {pts : List (List ℝ)} {r : List ℝ} (h : Below d pts r) (hl : AboveLow low pts) :
    LOk (low < ·) d pts r := fun p hp => ⟨(h.2 p hp).1, (h.2 p hp).2, hl p hp⟩

/-! ## C57, C58, C59: the exact algorithms compute the volume -/

/-- **C57.** `hv2d().compute` is the area of the union of the boxes, for every list of points none of which is worse
than the reference point in some coordinate (the empty list, duplicates and dominated points included) and for every
correct sorting routine. -/
theorem C57_area {srt : Srt ℝ} (hsrt : ValidSort srt) {pts : List (List ℝ)} {r : List ℝ} (h : Below 2 pts r) :
    hv2d (RN low) srt true pts r =
      .ok (MeasureTheory.volume (⋃ p ∈ pts, Set.Icc (pt 2 p) (pt 2 r))).toReal :=
  hv2d_ok hsrt h

/-- **C58.** `hv3d().compute` is the volume of the union of the boxes for every non-empty list of points. -/
theorem C58_volume {srt : Srt ℝ} (hsrt : ValidSort srt) {pts : List (List ℝ)} {r : List ℝ} (h : Below 3 pts r)
    (hne : pts ≠ []) (hlow : AboveLow low pts) :
    hv3d (RN low) srt true pts r =
      .ok (MeasureTheory.volume (⋃ p ∈ pts, Set.Icc (pt 3 p) (pt 3 r))).toReal :=
  hv3d_ok hsrt h hne hlow

/-- **C59.** `hvwfg().compute` is the volume of the union of the boxes in every dimension from 2 on. -/
theorem C59_wfg {srt : Srt ℝ} (hsrt : ValidSort srt) {d : Nat} (hd : 2 ≤ d) {pts : List (List ℝ)} {r : List ℝ}
    (h : Below d pts r) (hne : pts ≠ []) :
    wfg (RN low) srt 2 pts r = .ok (MeasureTheory.volume (⋃ p ∈ pts, Set.Icc (pt d p) (pt d r))).toReal := by
  obtain ⟨hr, -⟩ := id h
  subst hr
  exact wfg_ok hsrt le_rfl (Or.inl rfl) hd hne (below_lok h)

/-- **C59.** The same for every stop dimension the constructor accepts, also one above the dimension of the points. -/
theorem C59_wfg_stop {srt : Srt ℝ} (hsrt : ValidSort srt) {stop d : Nat} (hstop : 2 ≤ stop) (hd : 2 ≤ d)
    {pts : List (List ℝ)} {r : List ℝ} (h : Below d pts r) (hne : pts ≠ []) (hlow : AboveLow low pts) :
    wfg (RN low) srt stop pts r = .ok (MeasureTheory.volume (⋃ p ∈ pts, Set.Icc (pt d p) (pt d r))).toReal := by
  obtain ⟨hr, -⟩ := id h
  subst hr
  exact wfg_ok hsrt hstop (Or.inr fun _ h => h) hd hne (below_lok_low h hlow)

theorem C59_stop_rejected {R : Type} (N : Num R) {srt : Srt R} {stop : Nat} (h : stop < 2) (pts : List (List R))
    (r : List R) : wfg N srt stop pts r = .throws .invalidArgument := by
  unfold wfg; rw [if_pos h]

/-- The algorithm the library picks by default computes the volume in every dimension from 2 on. -/
theorem C59_default {srt : Srt ℝ} (hsrt : ValidSort srt) {d : Nat} (hd : 2 ≤ d) {pts : List (List ℝ)} {r : List ℝ}
    (h : Below d pts r) (hne : pts ≠ []) (hlow : AboveLow low pts) :
    bestCompute (RN low) srt pts r = .ok (hvol d pts r) := by
  obtain ⟨hr, -⟩ := id h
  subst hr
  exact bestCompute_ok hsrt hd hne (below_lok_low h hlow)

/-- A set of three points with a duplicate, a dominated point and a point on the border. -/
def demoPts : List (List ℝ) := [[1, 3, 0], [2, 2, 1], [2, 2, 1], [2, 3, 1], [4, 0, 2]]

theorem demoPts_below : Below 3 demoPts [4, 4, 4] := by
  refine ⟨rfl, fun p hp => ?_⟩
  simp only [demoPts, List.mem_cons, List.not_mem_nil, or_false] at hp
  rcases hp with rfl | rfl | rfl | rfl | rfl <;> refine ⟨rfl, fun i hi => ?_⟩ <;> interval_cases i <;> norm_num

theorem demoPts_low : AboveLow (-100) demoPts := by
  intro p hp a ha
  simp only [demoPts, List.mem_cons, List.not_mem_nil, or_false] at hp
  rcases hp with rfl | rfl | rfl | rfl | rfl <;> simp only [List.mem_cons, List.not_mem_nil, or_false] at ha <;>
    rcases ha with rfl | rfl | rfl <;> norm_num

example : ∃ v, hv3d (RN (-100)) insSort true demoPts [4, 4, 4] = .ok v :=
  ⟨_, C58_volume insSort_valid demoPts_below (by simp [demoPts]) demoPts_low⟩

example : Below 2 [[1, 3], [2, 2], [2, 3]] [4, 4] := by
  refine ⟨rfl, fun p hp => ?_⟩
  simp only [List.mem_cons, List.not_mem_nil, or_false] at hp
  rcases hp with rfl | rfl | rfl <;> refine ⟨rfl, fun i hi => ?_⟩ <;> interval_cases i <;> norm_num

example : ∃ v, wfg (RN (-100)) insSort 3 demoPts [4, 4, 4] = .ok v ∧ wfg (RN (-100)) insSort 7 demoPts [4, 4, 4] = .ok v :=
  ⟨_, C59_wfg_stop insSort_valid (by norm_num) (by norm_num) demoPts_below (by simp [demoPts]) demoPts_low,
    C59_wfg_stop insSort_valid (by norm_num) (by norm_num) demoPts_below (by simp [demoPts]) demoPts_low⟩

/-! ## C62: checks -/

/-- Points a `hypervolume` object accepts: at least one, all of the same dimension, at least 2. -/
def SameDim {R : Type} (d : Nat) (pts : List (List R)) : Prop := pts ≠ [] ∧ 2 ≤ d ∧ ∀ p ∈ pts, p.length = d

theorem chk_construct {R : Type} (N : Num R) (pts : List (List R)) :
    Chk (verifyAfterConstruct N pts) ((∃ d, SameDim d pts) ∧ ∀ p ∈ pts, ∀ a ∈ p, N.nan a = false) := by
  unfold verifyAfterConstruct
  cases pts with
  | nil => exact Or.inr ⟨rfl, fun h => h.1.elim fun d hd => hd.1 rfl⟩
  | cons p0 l =>
    simp only
    refine Chk.congr (Chk.ite_throw (fun h1 => Chk.ite_throw (fun h2 => Chk.ite_throw (fun h3 => Chk.pass)))) ?_
    simp only [List.any_eq_true, bne_iff_ne, ne_eq, not_exists, not_and, not_not, not_le, and_true, Bool.not_eq_true]
    constructor
    · rintro ⟨h1, h2, h3⟩
      exact ⟨⟨p0.length, by simp, h1, h2⟩, h3⟩
    · rintro ⟨⟨d, -, h1, h2⟩, h3⟩
      have := h2 p0 (by simp)
      refine ⟨by omega, fun p hp => by rw [h2 p hp, this], h3⟩

theorem chk_assertPoint {R : Type} (N : Num R) {r p : List R} (h : p.length ≤ r.length) :
    Chk (assertPoint N r p) ((∀ i : Nat, i < p.length → N.lt (N.at r i) (N.at p i) = false) ∧
      ∃ i : Nat, i < p.length ∧ N.eq (N.at r i) (N.at p i) = false) := by
  unfold assertPoint
  rw [if_neg (by omega)]
  refine Chk.congr (Chk.ite_throw (fun _ => Chk.pass)) ?_
  simp only [Bool.or_eq_true, List.all_eq_true, List.any_eq_true, List.mem_range, not_or, not_exists, not_and,
    not_forall, Bool.not_eq_true, and_true, exists_prop]
  exact and_comm

/-- The checks of `compute`, `exclusive` and `contributions` with the algorithm picked by default. -/
theorem chk_verify {R : Type} (N : Num R) {srt : Srt R}
    {srt2 : (Node R → Node R → Bool) → List (Node R) → List (Node R)} {big : R} {d : Nat} {pts : List (List R)}
    (hp : SameDim d pts) (r : List R) :
    Chk (verifyBeforeCompute (bestAlgo N srt srt2 big r) pts r) (r.length = d ∧ ∀ p ∈ pts,
      (∀ i : Nat, i < d → N.lt (N.at r i) (N.at p i) = false) ∧ ∃ i : Nat, i < d ∧ N.eq (N.at r i) (N.at p i) = false) := by
  obtain ⟨hne, h2, hlen⟩ := hp
  unfold verifyBeforeCompute
  cases hpts : pts with
  | nil => exact absurd hpts hne
  | cons p0 l =>
    simp only
    rw [← hpts]
    have hp0 : p0.length = d := hlen p0 (by rw [hpts]; simp)
    refine Chk.congr (Chk.ite_throw (P := ∀ p ∈ pts, (∀ i : Nat, i < d → N.lt (N.at r i) (N.at p i) = false) ∧
      ∃ i : Nat, i < d ∧ N.eq (N.at r i) (N.at p i) = false) (fun hr => ?_)) ?_
    · rw [not_not] at hr
      have hch : Chk (assertMinimisation N pts r) (∀ p ∈ pts, (∀ i : Nat, i < d → N.lt (N.at r i) (N.at p i) = false) ∧
          ∃ i : Nat, i < d ∧ N.eq (N.at r i) (N.at p i) = false) := by
        unfold assertMinimisation
        refine Chk.forM (fun p hp => ?_)
        have := hlen p hp
        have hc := chk_assertPoint N (r := r) (p := p) (by omega)
        rw [this] at hc
        exact hc
      unfold bestAlgo verifyDim
      split
      · rename_i h; simp only [h, ne_eq, not_true, if_false]; exact hch
      · split
        · rename_i h; simp only [h, ne_eq, not_true, if_false]; exact hch
        · exact hch
    · rw [not_not, hp0]
      constructor
      · rintro ⟨a, b⟩; exact ⟨a.symm, b⟩
      · rintro ⟨a, b⟩; exact ⟨a.symm, b⟩

section
variable {K : Type} [Field K] [LinearOrder K]

/-- **C62.** Construction with verification accepts exactly the non-empty lists of points of one dimension, at least 2,
without NaN; otherwise it throws `std::invalid_argument`. Doubles with any rounding. -/
theorem C62_construct (op : Fl.Ops K) (lw : K) (pts : List (List (Fl K))) :
    (construct (Num.ofFl op lw) pts true = .ok pts ↔
      pts ≠ [] ∧ ∃ d, 2 ≤ d ∧ ∀ p ∈ pts, p.length = d ∧ ∀ a ∈ p, a ≠ .nan) ∧
    (construct (Num.ofFl op lw) pts true = .throws .invalidArgument ↔
      ¬ (pts ≠ [] ∧ ∃ d, 2 ≤ d ∧ ∀ p ∈ pts, p.length = d ∧ ∀ a ∈ p, a ≠ .nan)) := by
  have hc := chk_construct (Num.ofFl op lw) pts
  have hn : ∀ a : Fl K, (Num.ofFl op lw).nan a = false ↔ a ≠ .nan := by
    intro a
    change Fl.isNan a = false ↔ _
    cases a <;> simp [Fl.isNan]
  have he : ((∃ d, SameDim d pts) ∧ ∀ p ∈ pts, ∀ a ∈ p, (Num.ofFl op lw).nan a = false) ↔
      (pts ≠ [] ∧ ∃ d, 2 ≤ d ∧ ∀ p ∈ pts, p.length = d ∧ ∀ a ∈ p, a ≠ .nan) := by
    constructor
    · rintro ⟨⟨d, h1, h2, h3⟩, h4⟩
      exact ⟨h1, d, h2, fun p hp => ⟨h3 p hp, fun a ha => (hn a).mp (h4 p hp a ha)⟩⟩
    · rintro ⟨h1, d, h2, h3⟩
      exact ⟨⟨d, h1, h2, fun p hp => (h3 p hp).1⟩, fun p hp a ha => (hn a).mpr ((h3 p hp).2 a ha)⟩
  rw [← he]
  unfold construct
  rw [if_pos rfl]
  rcases hc with ⟨h1, h2⟩ | ⟨h1, h2⟩
  · rw [h1]; simp only [Outcome.bind_ok]
    refine ⟨⟨fun _ => h2, fun _ => ?_⟩, ⟨fun h => ?_, fun h => absurd h2 h⟩⟩
    · trivial
    · cases h
  · rw [h1]; simp only [Outcome.bind_throws]; exact ⟨⟨fun h => (by cases h), fun h => absurd h h2⟩, ⟨fun _ => h2, fun _ => trivial⟩⟩

omit [Field K] [LinearOrder K] in
theorem fl_getD_ne {l : List (Fl K)} (h : ∀ a ∈ l, a ≠ .nan) {i : Nat} (hi : i < l.length) (z : Fl K) :
    l.getD i z ≠ .nan := by
  simp only [List.getD]; rw [List.getElem?_eq_getElem hi]; exact h _ (List.getElem_mem _)

/-- **C62 (part).** For a reference point without NaN, `compute` with the default algorithm passes its checks exactly
when the reference point has the dimension of the points and every point is nowhere worse than it and somewhere better;
otherwise it throws `std::invalid_argument`. Missing: a NaN in the reference point is not rejected, see
`C62_nan_accepted`. -/
theorem C62_compute_partial (op : Fl.Ops K) (lw : K) {srt : Srt (Fl K)}
    {srt2 : (Node (Fl K) → Node (Fl K) → Bool) → List (Node (Fl K)) → List (Node (Fl K))} {big : Fl K} {d : Nat}
    {pts : List (List (Fl K))} (hp : SameDim d pts) (hnp : ∀ p ∈ pts, ∀ a ∈ p, a ≠ .nan) {r : List (Fl K)}
    (hnr : ∀ a ∈ r, a ≠ .nan) :
    let algo := bestAlgo (Num.ofFl op lw) srt srt2 big r
    let good := r.length = d ∧ ∀ p ∈ pts, (∀ i : Nat, i < d → p.getD i .nan ≤ r.getD i .nan) ∧
      ∃ i : Nat, i < d ∧ p.getD i .nan < r.getD i .nan
    (good → hvCompute true algo pts r = algo.compute pts r) ∧
    (¬ good → hvCompute true algo pts r = .throws .invalidArgument) := by
  intro algo good
  have hc := chk_verify (Num.ofFl op lw) (srt := srt) (srt2 := srt2) (big := big) hp r
  have he : (r.length = d ∧ ∀ p ∈ pts,
      (∀ i : Nat, i < d → (Num.ofFl op lw).lt ((Num.ofFl op lw).at r i) ((Num.ofFl op lw).at p i) = false) ∧
      ∃ i : Nat, i < d ∧ (Num.ofFl op lw).eq ((Num.ofFl op lw).at r i) ((Num.ofFl op lw).at p i) = false) ↔ good := by
    refine and_congr_right (fun hr => forall_congr' fun p => forall_congr' fun hm => ?_)
    have hl := hp.2.2 p hm
    have key : ∀ i : Nat, i < d → (Num.ofFl op lw).at p i = p.getD i .nan ∧ (Num.ofFl op lw).at r i = r.getD i .nan ∧
        p.getD i .nan ≠ .nan ∧ r.getD i .nan ≠ .nan := by
      intro i hi
      have h1 : i < p.length := by omega
      have h2 : i < r.length := by omega
      refine ⟨?_, ?_, fl_getD_ne (hnp p hm) h1 _, fl_getD_ne hnr h2 _⟩
      · unfold Num.at; simp only [List.getD]; rw [List.getElem?_eq_getElem h1]; rfl
      · unfold Num.at; simp only [List.getD]; rw [List.getElem?_eq_getElem h2]; rfl
    have hle : ∀ i : Nat, i < d → ((Num.ofFl op lw).lt ((Num.ofFl op lw).at r i) ((Num.ofFl op lw).at p i) = false ↔
        p.getD i .nan ≤ r.getD i .nan) := by
      intro i hi
      obtain ⟨e1, e2, n1, n2⟩ := key i hi
      rw [e1, e2, Bool.eq_false_iff, ne_eq]
      exact (not_congr (Fl.lt_iff n2 n1)).trans not_lt
    have hne : ∀ i : Nat, i < d → ((Num.ofFl op lw).eq ((Num.ofFl op lw).at r i) ((Num.ofFl op lw).at p i) = false ↔
        r.getD i .nan ≠ p.getD i .nan) := by
      intro i hi
      obtain ⟨e1, e2, n1, n2⟩ := key i hi
      rw [e1, e2, Bool.eq_false_iff, ne_eq]
      exact not_congr (Fl.eq_iff n2)
    constructor
    · rintro ⟨h1, i, hi, h2⟩
      refine ⟨fun i hi => (hle i hi).mp (h1 i hi), i, hi, ?_⟩
      exact lt_of_le_of_ne ((hle i hi).mp (h1 i hi)) (Ne.symm ((hne i hi).mp h2))
    · rintro ⟨h1, i, hi, h2⟩
      exact ⟨fun i hi => (hle i hi).mpr (h1 i hi), i, hi, (hne i hi).mpr h2.ne'⟩
  rw [he] at hc
  unfold hvCompute verifyIf
  simp only [if_true]
  refine ⟨fun hg => ?_, fun hg => ?_⟩
  · rw [hc.ok_iff.mpr hg]; rfl
  · rw [hc.throws_iff.mpr hg]; rfl

end

/-- A reference point made of NaN passes all checks: the clause of C62 on NaN is false. -/
theorem C62_nan_accepted :
    verifyBeforeCompute (bestAlgo (Num.ofFl (Fl.exact ℚ) (-1000)) insSort insSort (.fin 1000) [.nan, .nan])
      [[.fin 1, .fin 2], [.fin 2, .fin 1]] [.nan, .nan] = .ok () := by decide +kernel

example : SameDim 2 [[Fl.fin (1 : ℚ), .fin 2], [.pinf, .ninf]] ∧
    (∀ p ∈ [[Fl.fin (1 : ℚ), .fin 2], [.pinf, .ninf]], ∀ a ∈ p, a ≠ Fl.nan) ∧
    ∀ p ∈ [[Fl.fin (1 : ℚ), .fin 2], [.pinf, .ninf]], (∀ i : Nat, i < 2 → p.getD i .nan ≤ [Fl.pinf, Fl.fin 2].getD i .nan) ∧
      ∃ i : Nat, i < 2 ∧ p.getD i .nan < [Fl.pinf, Fl.fin 2].getD i .nan := by
  refine ⟨⟨by simp, le_rfl, by simp⟩, by simp, ?_⟩
  intro p hp
  simp only [List.mem_cons, List.not_mem_nil, or_false] at hp
  rcases hp with rfl | rfl
  · refine ⟨fun i hi => ?_, 0, by norm_num, by decide +kernel⟩
    interval_cases i <;> decide +kernel
  · refine ⟨fun i hi => ?_, 1, by norm_num, by decide +kernel⟩
    interval_cases i <;> decide +kernel

/-! ## The checks on the reals -/

/-- the condition the checks enforce: below the reference point and different from it -/
theorem chk_real {d : Nat} {pts : List (List ℝ)} {srt : Srt ℝ}
    {srt2 : (Node ℝ → Node ℝ → Bool) → List (Node ℝ) → List (Node ℝ)} {big : ℝ} (hp : SameDim d pts) (r : List ℝ) :
    Chk (verifyBeforeCompute (bestAlgo (RN low) srt srt2 big r) pts r)
      (Below d pts r ∧ ∀ p ∈ pts, ∃ i : Nat, i < d ∧ p.getD i 0 < r.getD i 0) := by
  refine (chk_verify (RN low) hp r).congr ?_
  have hle : ∀ (p : List ℝ) (i : Nat), ((RN low).lt ((RN low).at r i) ((RN low).at p i) = false ↔ p.getD i 0 ≤ r.getD i 0) :=
    fun p i => decide_eq_false_iff_not.trans not_lt
  have hne : ∀ (p : List ℝ) (i : Nat), ((RN low).eq ((RN low).at r i) ((RN low).at p i) = false ↔ r.getD i 0 ≠ p.getD i 0) :=
    fun p i => decide_eq_false_iff_not
  simp only [hle, hne]
  constructor
  · rintro ⟨h1, h2⟩
    refine ⟨⟨h1, fun p hm => ⟨hp.2.2 p hm, (h2 p hm).1⟩⟩, fun p hm => ?_⟩
    obtain ⟨i, hi, h3⟩ := (h2 p hm).2
    exact ⟨i, hi, lt_of_le_of_ne ((h2 p hm).1 i hi) (Ne.symm h3)⟩
  · rintro ⟨⟨h1, h2⟩, h3⟩
    refine ⟨h1, fun p hm => ⟨(h2 p hm).2, ?_⟩⟩
    obtain ⟨i, hi, h4⟩ := h3 p hm
    exact ⟨i, hi, h4.ne'⟩

/-- **C59, C62.** `hypervolume(points).compute(r)`: the volume if the checks pass, `std::invalid_argument` otherwise. -/
theorem C59_api {srt : Srt ℝ} (hsrt : ValidSort srt) {srt2 : (Node ℝ → Node ℝ → Bool) → List (Node ℝ) → List (Node ℝ)}
    {big : ℝ} {d : Nat} {pts : List (List ℝ)} (hp : SameDim d pts) (hlow : AboveLow low pts) (r : List ℝ) :
    (Below d pts r ∧ (∀ p ∈ pts, ∃ i : Nat, i < d ∧ p.getD i 0 < r.getD i 0) →
      hvCompute true (bestAlgo (RN low) srt srt2 big r) pts r = .ok (hvol d pts r)) ∧
    (¬ (Below d pts r ∧ ∀ p ∈ pts, ∃ i : Nat, i < d ∧ p.getD i 0 < r.getD i 0) →
      hvCompute true (bestAlgo (RN low) srt srt2 big r) pts r = .throws .invalidArgument) := by
  have hc := chk_real (low := low) (srt := srt) (srt2 := srt2) (big := big) hp r
  unfold hvCompute verifyIf
  simp only [if_true]
  refine ⟨fun hg => ?_, fun hg => ?_⟩
  · rw [hc.ok_iff.mpr hg]
    exact C59_default hsrt hp.2.1 hg.1 hp.1 hlow
  · rw [hc.throws_iff.mpr hg]; rfl

/-! ## C63 -/

/-- **C63.** The result does not depend on the order of the points. -/
theorem C63_order {srt : Srt ℝ} (hsrt : ValidSort srt) {d : Nat} (hd : 2 ≤ d) {pts pts' : List (List ℝ)} {r : List ℝ}
    (h : Below d pts r) (hne : pts ≠ []) (hlow : AboveLow low pts) (hperm : pts.Perm pts') :
    bestCompute (RN low) srt pts' r = bestCompute (RN low) srt pts r := by
  rw [C59_default hsrt hd h hne hlow, C59_default hsrt hd ⟨h.1, fun p hp => h.2 p (hperm.mem_iff.mpr hp)⟩
    (fun e => hne (by rw [e] at hperm; exact hperm.eq_nil)) (fun p hp => hlow p (hperm.mem_iff.mpr hp)),
    hvol_congr (cov_perm hperm)]

/-- **C63.** Adding a point that another one weakly dominates (in particular a duplicate) changes nothing. -/
theorem C63_dominated {srt : Srt ℝ} (hsrt : ValidSort srt) {d : Nat} (hd : 2 ≤ d) {pts : List (List ℝ)}
    {p q r : List ℝ} (h : Below d (p :: pts) r) (hlow : AboveLow low (p :: pts)) (hq : q ∈ pts)
    (hdom : ∀ i : Nat, i < d → q.getD i 0 ≤ p.getD i 0) :
    bestCompute (RN low) srt (p :: pts) r = bestCompute (RN low) srt pts r := by
  rw [C59_default hsrt hd h (by simp) hlow, C59_default hsrt hd ⟨h.1, fun x hx => h.2 x (by simp [hx])⟩
    (List.ne_nil_of_mem hq) (fun x hx => hlow x (by simp [hx]))]
  congr 1
  apply hvol_congr
  apply Set.Subset.antisymm <;> apply cov_sub
  · intro x hx
    rcases List.mem_cons.mp hx with rfl | hx
    · exact ⟨q, hq, hdom⟩
    · exact ⟨x, hx, fun _ _ => le_rfl⟩
  · intro x hx
    exact ⟨x, by simp [hx], fun _ _ => le_rfl⟩

/-- **C63.** The hypervolume never decreases when a point is added. -/
theorem C63_monotone {srt : Srt ℝ} (hsrt : ValidSort srt) {d : Nat} (hd : 2 ≤ d) {pts : List (List ℝ)} {p r : List ℝ}
    (h : Below d (p :: pts) r) (hne : pts ≠ []) (hlow : AboveLow low (p :: pts)) :
    ∃ v v', bestCompute (RN low) srt pts r = .ok v ∧ bestCompute (RN low) srt (p :: pts) r = .ok v' ∧ 0 ≤ v ∧ v ≤ v' := by
  refine ⟨_, _, C59_default hsrt hd ⟨h.1, fun x hx => h.2 x (by simp [hx])⟩ hne (fun x hx => hlow x (by simp [hx])),
    C59_default hsrt hd h (by simp) hlow, hvol_nonneg, hvol_mono (cov_sub fun x hx => ⟨x, by simp [hx], fun _ _ => le_rfl⟩)⟩

/-- **C63.** Strictly: a point that improves on all others in some box of positive volume increases the hypervolume; for
one point the hypervolume is the product of the distances to the reference point. -/
theorem C63_single {srt : Srt ℝ} (hsrt : ValidSort srt) {d : Nat} (hd : 2 ≤ d) {p r : List ℝ}
    (h : Below d [p] r) (hlow : AboveLow low [p]) :
    bestCompute (RN low) srt [p] r = .ok (∏ i ∈ Finset.range d, (r.getD i 0 - p.getD i 0)) := by
  rw [C59_default hsrt hd h (by simp) hlow, hvol_single_range (h.2 p (by simp)).2]

example : Below 3 ([2, 3, 1] :: [[1, 3, 0], [2, 2, 1]]) [4, 4, 4] ∧ AboveLow (-100) ([2, 3, 1] :: [[1, 3, 0], [2, 2, 1]]) ∧
    ∀ i : Nat, i < 3 → ([2, 2, 1] : List ℝ).getD i 0 ≤ [2, 3, 1].getD i 0 := by
  refine ⟨⟨rfl, fun p hp => ?_⟩, fun p hp => ?_, fun i hi => ?_⟩
  · refine demoPts_below.2 p ?_
    simp only [demoPts, List.mem_cons, List.not_mem_nil, or_false] at hp ⊢
    tauto
  · refine demoPts_low p ?_
    simp only [demoPts, List.mem_cons, List.not_mem_nil, or_false] at hp ⊢
    tauto
  · interval_cases i <;> norm_num

/-! ## C60: contributions -/

/-- The volume only point `i` covers. -/
noncomputable def exclVol (d : Nat) (pts : List (List ℝ)) (r : List ℝ) (i : Nat) : ℝ :=
  hvol d pts r - hvol d (pts.eraseIdx i) r

theorem exclVol_nonneg {d : Nat} {pts : List (List ℝ)} {r : List ℝ} {i : Nat} : 0 ≤ exclVol d pts r i := by
  unfold exclVol
  refine sub_nonneg.mpr (hvol_mono (cov_sub fun x hx => ⟨x, List.mem_of_mem_eraseIdx hx, fun _ _ => le_rfl⟩))

/-- it is the measure of what point `i` covers and no other point does -/
theorem exclVol_eq {d : Nat} {pts : List (List ℝ)} {r : List ℝ} {i : Nat} (hi : i < pts.length) :
    exclVol d pts r i =
      (MeasureTheory.volume (Set.Icc (pt d pts[i]) (pt d r) \ ⋃ q ∈ pts.eraseIdx i, Set.Icc (pt d q) (pt d r))).toReal := by
  unfold exclVol
  have hperm : pts.Perm (pts[i] :: pts.eraseIdx i) := (List.getElem_cons_eraseIdx_perm hi).symm
  rw [hvol_congr (cov_perm hperm)]
  unfold hvol
  rw [cov_cons]
  change MeasureTheory.volume.real _ - MeasureTheory.volume.real _ =
    MeasureTheory.volume.real (Set.Icc (pt d pts[i]) (pt d r) \ cov d (pts.eraseIdx i) r)
  have := MeasureTheory.measureReal_sdiff_add_inter (μ := MeasureTheory.volume) (s := Set.Icc (pt d pts[i]) (pt d r))
    (t := cov d (pts.eraseIdx i) r) cov_meas (isCompact_Icc.measure_lt_top.ne)
  have h2 := MeasureTheory.measureReal_union_add_inter (μ := MeasureTheory.volume) (s := Set.Icc (pt d pts[i]) (pt d r))
    (t := cov d (pts.eraseIdx i) r) cov_meas (isCompact_Icc.measure_lt_top.ne) cov_finite
  linarith

theorem take_drop_erase {α : Type} (l : List α) (i : Nat) : l.take i ++ l.drop (i + 1) = l.eraseIdx i := by
  rw [List.eraseIdx_eq_take_drop_succ]

theorem below_erase {d : Nat} {pts : List (List ℝ)} {r : List ℝ} {i : Nat} (h : Below d pts r) :
    Below d (pts.eraseIdx i) r := ⟨h.1, fun p hp => h.2 p (List.mem_of_mem_eraseIdx hp)⟩

/-- **C60.** `hypervolume::exclusive(i, r)` with the default algorithm is the volume only point `i` covers, and is not
negative; an index out of range throws `std::invalid_argument`. -/
theorem C60_exclusive {srt : Srt ℝ} (hsrt : ValidSort srt)
    {srt2 : (Node ℝ → Node ℝ → Bool) → List (Node ℝ) → List (Node ℝ)} {big : ℝ} {d : Nat} {pts : List (List ℝ)}
    (hp : SameDim d pts) (hlow : AboveLow low pts) {r : List ℝ} (h : Below d pts r)
    (hb : ∀ p ∈ pts, ∃ i : Nat, i < d ∧ p.getD i 0 < r.getD i 0) (i : Nat) :
    (i < pts.length → hvExclusive (RN low) true (bestAlgo (RN low) srt srt2 big r) i pts r = .ok (exclVol d pts r i)) ∧
    (pts.length ≤ i → hvExclusive (RN low) true (bestAlgo (RN low) srt srt2 big r) i pts r = .throws .invalidArgument) ∧
    0 ≤ exclVol d pts r i := by
  have hc := chk_real (low := low) (srt := srt) (srt2 := srt2) (big := big) hp r
  refine ⟨fun hi => ?_, fun hi => ?_, exclVol_nonneg⟩
  · unfold hvExclusive verifyIf
    simp only [if_true]
    rw [hc.ok_iff.mpr ⟨h, hb⟩]
    simp only [Outcome.bind_ok]
    rw [if_neg (by omega)]
    unfold exclusive
    change (if pts.length = 1 then bestCompute (RN low) srt pts r else if pts.length ≤ i then Outcome.ub else
      bestCompute (RN low) srt pts r >>= fun a => bestCompute (RN low) srt (pts.take i ++ pts.drop (i + 1)) r >>= fun b =>
        Outcome.ok ((RN low).sub a b)) = _
    rw [take_drop_erase, C59_default hsrt hp.2.1 h hp.1 hlow]
    by_cases h1 : pts.length = 1
    · rw [if_pos h1]
      have : pts.eraseIdx i = [] := by
        apply List.eq_nil_of_length_eq_zero
        rw [List.length_eraseIdx_of_lt hi]; omega
      unfold exclVol
      rw [this, hvol_nil, sub_zero]
    · rw [if_neg h1, if_neg (by omega)]
      rw [C59_default hsrt hp.2.1 (below_erase h) (by
        intro he
        have := congrArg List.length he
        rw [List.length_eraseIdx_of_lt hi] at this
        simp only [List.length_nil] at this
        have := hp.1
        rcases pts with _ | ⟨a, l⟩ <;> simp_all) (fun p hp => hlow p (List.mem_of_mem_eraseIdx hp))]
      rfl
  · unfold hvExclusive verifyIf
    simp only [if_true]
    rw [hc.ok_iff.mpr ⟨h, hb⟩]
    simp only [Outcome.bind_ok]
    rw [if_pos hi]

/-- **C60.** `hvwfg(stop).contributions`: the volume only covered by each point, for every dimension not below the stop
dimension. -/
theorem C60_wfg {srt : Srt ℝ} (hsrt : ValidSort srt) {stop d : Nat} (hstop : 2 ≤ stop) (hd : stop ≤ d)
    {pts : List (List ℝ)} {r : List ℝ} (h : Below d pts r) (hlow : stop = 2 ∨ AboveLow low pts) :
    wfgContributions (RN low) srt stop pts r = .ok ((List.range pts.length).map (exclVol d pts r)) := by
  obtain ⟨hr, hp⟩ := id h
  subst hr
  unfold wfgContributions
  have hdim : dimOk r.length pts r = true := by
    unfold dimOk
    simp only [beq_self_eq_true, Bool.true_and, List.all_eq_true, beq_iff_eq]
    exact fun p h => (hp p h).1
  rw [if_neg (by omega), hdim]
  have : ¬ r.length < 2 := by omega
  simp only [Bool.not_true, Bool.false_or, decide_eq_true_eq, this, if_false]
  apply Outcome.mapM_ok
  intro i hi
  rw [List.mem_range] at hi
  rcases hlow with rfl | hlow
  · exact wfgContribution_ok hsrt le_rfl (Or.inl rfl) hd (below_lok h) hi
  · exact wfgContribution_ok hsrt hstop (Or.inr fun _ h => h) hd (below_lok_low h hlow) hi

/-- **C60 (part).** `hypervolume::contributions(r)` with the default algorithm returns the volume only covered by each
point, for points of dimension 4 or more. Missing: dimensions 2 and 3, where the algorithm used (HyCon3D) is wrong for
points that share their first coordinate, see `C60_wrong_contribution`, and undefined for points on the border, see
`C60_undefined`. -/
theorem C60_contributions_partial {srt : Srt ℝ} (hsrt : ValidSort srt)
    {srt2 : (Node ℝ → Node ℝ → Bool) → List (Node ℝ) → List (Node ℝ)} {big : ℝ} {d : Nat} (hd : 4 ≤ d)
    {pts : List (List ℝ)} (hp : SameDim d pts) {r : List ℝ} (h : Below d pts r)
    (hb : ∀ p ∈ pts, ∃ i : Nat, i < d ∧ p.getD i 0 < r.getD i 0) :
    hvContributions (RN low) true (bestAlgo (RN low) srt srt2 big r) pts r =
      .ok ((List.range pts.length).map (exclVol d pts r)) := by
  have hc := chk_real (low := low) (srt := srt) (srt2 := srt2) (big := big) hp r
  unfold hvContributions verifyIf
  simp only [if_true]
  rw [hc.ok_iff.mpr ⟨h, hb⟩]
  simp only [Outcome.bind_ok]
  match pts, hp, h with
  | [], hp, _ => exact absurd rfl hp.1
  | [p], hp, h =>
    simp only
    rw [rn_volumeV (h.2 p (by simp)).1 (h.2 p (by simp)).2]
    simp [exclVol, hvol_nil]
  | p :: q :: l, hp, h =>
    simp only
    have hr := h.1
    change bestContributions (RN low) srt srt2 big (p :: q :: l) r = _
    unfold bestContributions
    rw [if_neg (by omega), if_neg (by omega)]
    exact C60_wfg hsrt le_rfl (by omega) h (Or.inl rfl)

/-- The base class version, for algorithms whose `compute` is the volume. -/
theorem C60_base {compute : List (List ℝ) → List ℝ → Outcome ℝ} {d : Nat} {pts : List (List ℝ)} {r : List ℝ}
    (h : Below d pts r) (hne : pts ≠ [])
    (hcomp : ∀ P, P ≠ [] → (∀ p ∈ P, p ∈ pts) → compute P r = .ok (hvol d P r)) :
    contributionsDefault (RN low) compute pts r = .ok ((List.range pts.length).map (exclVol d pts r)) := by
  unfold contributionsDefault
  match pts, hne, h, hcomp with
  | [p], _, h, _ =>
    simp only
    rw [rn_volumeV (h.2 p (by simp)).1 (h.2 p (by simp)).2]
    simp [exclVol, hvol_nil]
  | p :: q :: l, _, h, hcomp =>
    simp only
    rw [hcomp _ (by simp) (fun _ h => h)]
    simp only [Outcome.bind_ok]
    apply Outcome.mapM_ok
    intro i hi
    rw [List.mem_range] at hi
    unfold contribution
    rw [take_drop_erase, hcomp _ (by
      intro he
      have := congrArg List.length he
      rw [List.length_eraseIdx_of_lt hi] at this
      simp at this) (fun x hx => List.mem_of_mem_eraseIdx hx)]
    rfl

/-- exact arithmetic on the rationals -/
abbrev QN : Num ℚ := Num.ofField ℚ (-1000000)

/-- Three mutually non-dominated points, two of which share their first coordinate: `contributions` says 13 for the
third, but the volume drops by 9 only when that point is removed. -/
theorem C60_wrong_contribution :
    bestContributions QN insSort insSort 1000000 [[2, 2, 0], [2, 1, 1], [1, 1/2, 2]] [4, 4, 4] = .ok [4, 2, 13] ∧
    exclusive QN (bestCompute QN insSort) 2 [[2, 2, 0], [2, 1, 1], [1, 1/2, 2]] [4, 4, 4] = .ok 9 := by
  constructor <;> decide +kernel

/-- The same in two dimensions (with dominated points). -/
theorem C60_wrong_contribution_2d :
    bestContributions QN insSort insSort 1000000 [[2, 2], [2, 1], [1, 1/2]] [4, 4] = .ok [0, 0, 13/2] ∧
    exclusive QN (bestCompute QN insSort) 2 [[2, 2], [2, 1], [1, 1/2]] [4, 4] = .ok (9/2) := by
  constructor <;> decide +kernel

/-- Two points on the border, which pass all checks: `contributions` runs over the beginning of its tree. -/
theorem C60_undefined :
    verifyBeforeCompute (bestAlgo QN insSort insSort 1000000 [1, 1]) [[1, 1/2], [1, 3/10]] [1, 1] = .ok () ∧
    bestContributions QN insSort insSort 1000000 [[1, 1/2], [1, 3/10]] [1, 1] = .ub := by
  constructor <;> decide +kernel

/-- `hvwfg(stop)` with a stop dimension above the dimension of the points: `contributions` writes outside the array of
frames (`compute` does not, see `C59_wfg_stop`). -/
theorem C60_stop_undefined :
    wfgContributions QN insSort 3 [[1, 1], [2, 5], [3, 4], [4, 3]] [8, 8] = .ub := by decide +kernel

example : Below 4 [[1, 2, 0, 1], [2, 1, 1, 1]] [3, 3, 3, 3] ∧ SameDim 4 [[(1 : ℝ), 2, 0, 1], [2, 1, 1, 1]] ∧
    ∀ p ∈ [[(1 : ℝ), 2, 0, 1], [2, 1, 1, 1]], ∃ i : Nat, i < 4 ∧ p.getD i 0 < [(3 : ℝ), 3, 3, 3].getD i 0 := by
  refine ⟨⟨rfl, fun p hp => ?_⟩, ⟨by simp, by norm_num, by simp⟩, fun p hp => ?_⟩
  · simp only [List.mem_cons, List.not_mem_nil, or_false] at hp
    rcases hp with rfl | rfl <;> refine ⟨rfl, fun i hi => ?_⟩ <;> interval_cases i <;> norm_num
  · simp only [List.mem_cons, List.not_mem_nil, or_false] at hp
    rcases hp with rfl | rfl <;> exact ⟨0, by norm_num, by norm_num⟩

/-! ## C61: extreme contributors -/

theorem extremeLoop_spec {R : Type} {cmp : R → R → Bool} {lt : R → R → Prop} (hcmp : ∀ a b, cmp a b = true ↔ lt a b)
    (htr : ∀ a b c, lt a b → ¬ lt c b → lt a c) (hirr : ∀ a b, lt a b → ¬ lt b a)
    (cs all : List R) (k i : Nat) (v : R) (hall : all.drop i = cs) (hi : i ≤ all.length) (hk : all[k]? = some v) (hki : k < i)
    (hmin : ∀ (j : Nat) (w : R), j < i → all[j]? = some w → ¬ lt w v ∧ (j < k → lt v w)) :
    ∃ v', all[extremeLoop cmp k v i cs]? = some v' ∧
      ∀ (j : Nat) (w : R), all[j]? = some w → ¬ lt w v' ∧ (j < extremeLoop cmp k v i cs → lt v' w) := by
  induction cs generalizing k i v with
  | nil =>
    have : all.length ≤ i := by
      by_contra hc
      have := congrArg List.length hall
      simp at this; omega
    refine ⟨v, hk, fun j w hj => ?_⟩
    have : j < all.length := (List.getElem?_eq_some_iff.mp hj).1
    exact hmin j w (by omega) hj
  | cons c cs ih =>
    have hlt : i < all.length := by
      by_contra hc
      rw [List.drop_eq_nil_of_le (by omega)] at hall
      cases hall
    have hc : all[i]? = some c := by
      have := congrArg List.head? hall
      rw [List.head?_drop] at this
      simpa using this
    have hdrop : all.drop (i + 1) = cs := by
      have := congrArg List.tail hall
      rw [List.tail_drop] at this
      simpa using this
    unfold extremeLoop
    split
    · rename_i hlt'
      rw [hcmp] at hlt'
      refine ih i (i + 1) c hdrop (by omega) hc (by omega) (fun j w hj hw => ?_)
      rcases Nat.lt_succ_iff_lt_or_eq.mp hj with h | rfl
      · have h1 := htr c v w hlt' (hmin j w h hw).1
        exact ⟨hirr _ _ h1, fun _ => h1⟩
      · rw [hc] at hw; cases hw
        exact ⟨fun h => hirr _ _ h h, fun h => absurd h (lt_irrefl _)⟩
    · rename_i hlt'
      rw [hcmp] at hlt'
      refine ih k (i + 1) v hdrop (by omega) hk (by omega) (fun j w hj hw => ?_)
      rcases Nat.lt_succ_iff_lt_or_eq.mp hj with h | rfl
      · exact hmin j w h hw
      · rw [hc] at hw; cases hw; exact ⟨hlt', fun h => absurd h (by omega)⟩

/-- **C61 (part).** The extreme contributors are the first points with the least and the greatest of the contributions
the algorithm returns. Missing: in dimensions 2 and 3 these contributions may be wrong (C60), and so is then the point
returned, see `C61_wrong_greatest`. -/
theorem C61_extreme_partial {contributions : List (List ℝ) → List ℝ → Outcome (List ℝ)} {pts : List (List ℝ)}
    {r : List ℝ} {c : List ℝ} (hc : contributions pts r = .ok c) (hl : c.length = pts.length) (hne : pts ≠ []) :
    (∃ (k : Nat) (v : ℝ), leastContributor (RN low) contributions pts r = .ok k ∧ c[k]? = some v ∧
      ∀ (j : Nat) (w : ℝ), c[j]? = some w → v ≤ w ∧ (w = v → k ≤ j)) ∧
    (∃ (k : Nat) (v : ℝ), greatestContributor (RN low) contributions pts r = .ok k ∧ c[k]? = some v ∧
      ∀ (j : Nat) (w : ℝ), c[j]? = some w → w ≤ v ∧ (w = v → k ≤ j)) := by
  have hlen : 0 < c.length := by rw [hl]; exact List.length_pos_iff.mpr hne
  obtain ⟨v, cs, rfl⟩ : ∃ v cs, c = v :: cs := by
    cases c with
    | nil => simp at hlen
    | cons v cs => exact ⟨v, cs, rfl⟩
  unfold leastContributor greatestContributor extremeContributor
  by_cases h1 : pts.length = 1
  · have hcs : cs = [] := by
      apply List.eq_nil_of_length_eq_zero
      simp at hl; omega
    subst hcs
    simp only [h1, if_true]
    have key : ∀ (j : Nat) (w : ℝ), [v][j]? = some w → w = v := by
      intro j w hj
      cases j with
      | zero => simpa using hj.symm
      | succ j => simp at hj
    exact ⟨⟨0, v, rfl, rfl, fun j w hj => ⟨(key j w hj).ge, fun _ => Nat.zero_le _⟩⟩,
      ⟨0, v, rfl, rfl, fun j w hj => ⟨(key j w hj).le, fun _ => Nat.zero_le _⟩⟩⟩
  · simp only [h1, if_false, hc, Outcome.bind_ok]
    have base : ∀ (j : Nat) (w : ℝ), j < 1 → (v :: cs)[j]? = some w → w = v := by
      intro j w hj hw
      have : j = 0 := by omega
      subst this
      simpa using hw.symm
    constructor
    · obtain ⟨v', h2, h3⟩ := extremeLoop_spec (cmp := (RN low).lt) (lt := fun a b : ℝ => a < b) (fun a b => decide_eq_true_iff)
        (fun a b c h1 h2 => lt_of_lt_of_le h1 (not_lt.mp h2)) (fun a b h => not_lt.mpr h.le) cs (v :: cs) 0 1 v
        rfl (by simp) rfl (by omega) (fun j w hj hw => ⟨not_lt.mpr (base j w hj hw).ge, fun h => absurd h (by omega)⟩)
      exact ⟨_, v', rfl, h2, fun j w hj => ⟨not_lt.mp (h3 j w hj).1, fun e => by
        by_contra hc; exact absurd ((h3 j w hj).2 (by omega)) (by rw [e]; exact lt_irrefl _)⟩⟩
    · obtain ⟨v', h2, h3⟩ := extremeLoop_spec (cmp := fun a b => (RN low).lt b a) (lt := fun a b : ℝ => b < a)
        (fun a b => decide_eq_true_iff) (fun a b c h1 h2 => lt_of_le_of_lt (not_lt.mp h2) h1) (fun a b h => not_lt.mpr h.le)
        cs (v :: cs) 0 1 v rfl (by simp) rfl (by omega)
        (fun j w hj hw => ⟨not_lt.mpr (base j w hj hw).le, fun h => absurd h (by omega)⟩)
      exact ⟨_, v', rfl, h2, fun j w hj => ⟨not_lt.mp (h3 j w hj).1, fun e => by
        by_contra hc; exact absurd ((h3 j w hj).2 (by omega)) (by rw [e]; exact lt_irrefl _)⟩⟩

/-- **C61.** `hypervolume::least_contributor(r)` and `greatest_contributor(r)` in dimension 4 or more: points for which
the volume only they cover is least and greatest. -/
theorem C61_api {srt : Srt ℝ} (hsrt : ValidSort srt)
    {srt2 : (Node ℝ → Node ℝ → Bool) → List (Node ℝ) → List (Node ℝ)} {big : ℝ} {d : Nat} (hd : 4 ≤ d)
    {pts : List (List ℝ)} (hp : SameDim d pts) {r : List ℝ} (h : Below d pts r)
    (hb : ∀ p ∈ pts, ∃ i : Nat, i < d ∧ p.getD i 0 < r.getD i 0) :
    (∃ k < pts.length, hvLeast (RN low) true (bestAlgo (RN low) srt srt2 big r) pts r = .ok k ∧
      ∀ j < pts.length, exclVol d pts r k ≤ exclVol d pts r j) ∧
    (∃ k < pts.length, hvGreatest (RN low) true (bestAlgo (RN low) srt srt2 big r) pts r = .ok k ∧
      ∀ j < pts.length, exclVol d pts r j ≤ exclVol d pts r k) := by
  have hc := chk_real (low := low) (srt := srt) (srt2 := srt2) (big := big) hp r
  have hr := h.1
  have hcon : bestContributions (RN low) srt srt2 big pts r = .ok ((List.range pts.length).map (exclVol d pts r)) := by
    unfold bestContributions
    rw [if_neg (by omega), if_neg (by omega)]
    exact C60_wfg hsrt le_rfl (by omega) h (Or.inl rfl)
  obtain ⟨⟨k, v, h1, h2, h3⟩, ⟨k', v', h1', h2', h3'⟩⟩ := C61_extreme_partial (low := low) hcon (by simp) hp.1
  have get : ∀ (j : Nat) (w : ℝ), ((List.range pts.length).map (exclVol d pts r))[j]? = some w →
      j < pts.length ∧ w = exclVol d pts r j := by
    intro j w hj
    obtain ⟨hlt, he⟩ := List.getElem?_eq_some_iff.mp hj
    simp only [List.length_map, List.length_range] at hlt
    simp only [List.getElem_map, List.getElem_range] at he
    exact ⟨hlt, he.symm⟩
  have put : ∀ j < pts.length, ((List.range pts.length).map (exclVol d pts r))[j]? = some (exclVol d pts r j) := by
    intro j hj
    rw [List.getElem?_map, List.getElem?_range hj]; rfl
  constructor
  · obtain ⟨g1, g2⟩ := get k v h2
    refine ⟨k, g1, ?_, fun j hj => g2 ▸ (h3 j _ (put j hj)).1⟩
    unfold hvLeast verifyIf
    simp only [if_true]
    rw [hc.ok_iff.mpr ⟨h, hb⟩]
    simp only [Outcome.bind_ok]
    split
    · rename_i hlen
      have : k = 0 := by omega
      rw [this]
    · exact h1
  · obtain ⟨g1, g2⟩ := get k' v' h2'
    refine ⟨k', g1, ?_, fun j hj => g2 ▸ (h3' j _ (put j hj)).1⟩
    unfold hvGreatest verifyIf
    simp only [if_true]
    rw [hc.ok_iff.mpr ⟨h, hb⟩]
    simp only [Outcome.bind_ok]
    exact h1'

/-- Three mutually non-dominated points for which `greatest_contributor` returns the wrong one: index 2 although point 0
contributes more. -/
theorem C61_wrong_greatest :
    hvGreatest QN true (bestAlgo QN insSort insSort 1000000 [4, 4, 4]) [[2, 2, -1], [2, 1, 1], [1, 1/2, 5/2]] [4, 4, 4] = .ok 2 ∧
    exclusive QN (bestCompute QN insSort) 0 [[2, 2, -1], [2, 1, 1], [1, 1/2, 5/2]] [4, 4, 4] = .ok 8 ∧
    exclusive QN (bestCompute QN insSort) 2 [[2, 2, -1], [2, 1, 1], [1, 1/2, 5/2]] [4, 4, 4] = .ok (27/4) := by
  refine ⟨?_, ?_, ?_⟩ <;> decide +kernel

/-! ## C77: the default reference point -/

theorem foldl_max_spec (f : List ℝ → ℝ) (ps : List (List ℝ)) (m : ℝ) :
    m ≤ ps.foldl (fun m p => (RN low).max m (f p)) m ∧ (∀ p ∈ ps, f p ≤ ps.foldl (fun m p => (RN low).max m (f p)) m) ∧
    (ps.foldl (fun m p => (RN low).max m (f p)) m = m ∨ ∃ p ∈ ps, ps.foldl (fun m p => (RN low).max m (f p)) m = f p) := by
  induction ps generalizing m with
  | nil => simp
  | cons p ps ih =>
    rw [List.foldl_cons, rn_max]
    obtain ⟨h1, h2, h3⟩ := ih (max m (f p))
    refine ⟨le_trans (le_max_left _ _) h1, fun q hq => ?_, ?_⟩
    · rcases List.mem_cons.mp hq with rfl | hq
      · exact le_trans (le_max_right _ _) h1
      · exact h2 q hq
    · rcases h3 with h3 | ⟨q, hq, h3⟩
      · rcases max_choice m (f p) with e | e
        · rw [h3, e]; exact Or.inl rfl
        · rw [h3, e]; exact Or.inr ⟨p, by simp, rfl⟩
      · exact Or.inr ⟨q, by simp [hq], h3⟩

/-- **C77.** `refpoint(offset)`: each coordinate is the greatest value of that coordinate over the points, plus the
offset. -/
theorem C77_refpoint {d : Nat} {pts : List (List ℝ)} (hp : SameDim d pts) (offset : ℝ) :
    ∃ r, refpoint (RN low) pts offset = .ok r ∧ r.length = d ∧ ∀ i : Nat, i < d →
      (∀ p ∈ pts, p.getD i 0 + offset ≤ r.getD i 0) ∧ ∃ p ∈ pts, p.getD i 0 + offset = r.getD i 0 := by
  obtain ⟨hne, -, hlen⟩ := hp
  cases pts with
  | nil => exact absurd rfl hne
  | cons p0 ps =>
    have h0 : p0.length = d := hlen p0 (by simp)
    refine ⟨(List.range d).map (fun i => ps.foldl (fun m p => (RN low).max m (p.getD i 0)) (p0.getD i 0) + offset), ?_,
      by simp, fun i hi => ?_⟩
    · unfold refpoint
      simp only
      rw [if_neg, h0]
      · rfl
      · intro hc
        rw [List.any_eq_true] at hc
        obtain ⟨p, hp, h⟩ := hc
        have := hlen p (by simp [hp])
        simp only [decide_eq_true_eq] at h
        omega
    · have hg : ((List.range d).map (fun i => ps.foldl (fun m p => (RN low).max m (p.getD i 0)) (p0.getD i 0) + offset)).getD i 0 =
          ps.foldl (fun m p => (RN low).max m (p.getD i 0)) (p0.getD i 0) + offset := by
        simp only [List.getD]; rw [List.getElem?_map, List.getElem?_range hi]; rfl
      rw [hg]
      obtain ⟨h1, h2, h3⟩ := foldl_max_spec (low := low) (fun p => p.getD i 0) ps (p0.getD i 0)
      refine ⟨fun p hp => ?_, ?_⟩
      · rcases List.mem_cons.mp hp with rfl | hp
        · exact add_le_add h1 le_rfl
        · exact add_le_add (h2 p hp) le_rfl
      · rcases h3 with h3 | ⟨q, hq, h3⟩
        · exact ⟨p0, by simp, by rw [h3]⟩
        · exact ⟨q, by simp [hq], by rw [h3]⟩

/-- **C77.** With a positive offset the default reference point is accepted by `compute`, and every point contributes a
box of positive volume. -/
theorem C77_accepted {srt : Srt ℝ} (hsrt : ValidSort srt)
    {srt2 : (Node ℝ → Node ℝ → Bool) → List (Node ℝ) → List (Node ℝ)} {big : ℝ} {d : Nat} {pts : List (List ℝ)}
    (hp : SameDim d pts) (hlow : AboveLow low pts) {offset : ℝ} (ho : 0 < offset) :
    ∃ r v, refpoint (RN low) pts offset = .ok r ∧ hvCompute true (bestAlgo (RN low) srt srt2 big r) pts r = .ok v ∧ 0 < v := by
  obtain ⟨r, h1, h2, h3⟩ := C77_refpoint (low := low) hp offset
  have hlt : ∀ p ∈ pts, ∀ i : Nat, i < d → p.getD i 0 < r.getD i 0 := fun p hm i hi =>
    lt_of_lt_of_le (lt_add_of_pos_right _ ho) ((h3 i hi).1 p hm)
  have hbel : Below d pts r := ⟨h2, fun p hm => ⟨hp.2.2 p hm, fun i hi => (hlt p hm i hi).le⟩⟩
  refine ⟨r, hvol d pts r, h1, (C59_api hsrt hp hlow r).1 ⟨hbel, fun p hm => ⟨0, by have := hp.2.1; omega,
    hlt p hm 0 (by have := hp.2.1; omega)⟩⟩, ?_⟩
  obtain ⟨p, hm⟩ := List.exists_mem_of_ne_nil pts hp.1
  refine lt_of_lt_of_le ?_ (hvol_mono (P := [p]) (cov_sub fun x hx => ⟨p, hm, by rw [List.mem_singleton.mp hx]; exact fun _ _ => le_rfl⟩))
  rw [hvol_single_range (hbel.2 p hm).2]
  exact Finset.prod_pos (fun i hi => sub_pos.mpr (hlt p hm i (Finset.mem_range.mp hi)))

example : SameDim 3 demoPts ∧ AboveLow (-100) demoPts :=
  ⟨⟨by simp [demoPts], by norm_num, fun p hp => (demoPts_below.2 p hp).1⟩, demoPts_low⟩

end Verif.Props
