import Verif.Proof.Hv3d
import Mathlib.Data.List.Lex

/-!
# The WFG recursion
-/

set_option autoImplicit false

namespace Verif.Hv

open Verif Verif.Spec

variable {low : ℝ} {Q : ℝ → Prop}

/-- points with `s` coordinates, inside the box, all coordinates with a property -/
def LOk (Q : ℝ → Prop) (s : Nat) (pts : List (List ℝ)) (r : List ℝ) : Prop :=
  ∀ p ∈ pts, p.length = s ∧ (∀ i : Nat, i < s → p.getD i 0 ≤ r.getD i 0) ∧ ∀ a ∈ p, Q a

theorem domCmpFrom_spec (a b : List ℝ) (is : List Nat) :
    (domCmpFrom (RN low) a b is = .bDomA → ∀ i ∈ is, b.getD i 0 ≤ a.getD i 0) ∧
    (domCmpFrom (RN low) a b is = .aDomB → ∀ i ∈ is, a.getD i 0 ≤ b.getD i 0) ∧
    (domCmpFrom (RN low) a b is = .equal → ∀ i ∈ is, a.getD i 0 = b.getD i 0) := by
  induction is with
  | nil => simp
  | cons i is ih =>
    unfold domCmpFrom
    have hl : ∀ (x y : List ℝ) (j : Nat), (RN low).lt ((RN low).at x j) ((RN low).at y j) = true ↔ x.getD j 0 < y.getD j 0 :=
      fun x y j => decide_eq_true_iff
    have hany : ∀ (x y : List ℝ), is.any (fun j => (RN low).lt ((RN low).at x j) ((RN low).at y j)) = true ↔
        ∃ j ∈ is, x.getD j 0 < y.getD j 0 := by
      intro x y
      rw [List.any_eq_true]
      exact exists_congr (fun j => and_congr_right (fun _ => hl x y j))
    split
    · rename_i h1
      rw [hl] at h1
      split
      · simp
      · rename_i h2
        rw [hany] at h2
        push Not at h2
        refine ⟨fun _ j hj => ?_, by simp, by simp⟩
        rcases List.mem_cons.mp hj with rfl | hj
        · exact h1.le
        · exact h2 j hj
    · rename_i h1
      rw [hl] at h1
      split
      · rename_i h3
        rw [hl] at h3
        split
        · simp
        · rename_i h2
          rw [hany] at h2
          push Not at h2
          refine ⟨by simp, fun _ j hj => ?_, by simp⟩
          rcases List.mem_cons.mp hj with rfl | hj
          · exact h3.le
          · exact h2 j hj
      · rename_i h3
        rw [hl] at h3
        have he : a.getD i 0 = b.getD i 0 := le_antisymm (not_lt.mp h1) (not_lt.mp h3)
        refine ⟨fun h j hj => ?_, fun h j hj => ?_, fun h j hj => ?_⟩
        · rcases List.mem_cons.mp hj with rfl | hj
          · exact he.ge
          · exact ih.1 h j hj
        · rcases List.mem_cons.mp hj with rfl | hj
          · exact he.le
          · exact ih.2.1 h j hj
        · rcases List.mem_cons.mp hj with rfl | hj
          · exact he
          · exact ih.2.2 h j hj

theorem cov_append_congr {d : Nat} {P P' L L' : List (List ℝ)} {r : List ℝ} (h1 : cov d P r = cov d P' r)
    (h2 : cov d L r = cov d L' r) : cov d (P ++ L) r = cov d (P' ++ L') r := by
  rw [cov_append, cov_append, h1, h2]

theorem limitInsert_cov {slice : Nat} {r : List ℝ} (fr : List (List ℝ)) (s : List ℝ) :
    cov slice (limitInsert (RN low) slice fr s) r = cov slice (fr ++ [s]) r := by
  unfold limitInsert
  split
  · rename_i h
    rw [List.any_eq_true] at h
    obtain ⟨q, hq, hc⟩ := h
    have hd := (domCmpFrom_spec (low := low) s q (List.range slice)).1 (by simpa [domCmp] using hc)
    apply Set.Subset.antisymm <;> apply cov_sub
    · intro p hp; exact ⟨p, by simp [hp], fun _ _ => le_rfl⟩
    · intro p hp
      rcases List.mem_append.mp hp with hp | hp
      · exact ⟨p, hp, fun _ _ => le_rfl⟩
      · rw [List.mem_singleton.mp hp]
        exact ⟨q, hq, fun i hi => hd i (List.mem_range.mpr hi)⟩
  · apply Set.Subset.antisymm <;> apply cov_sub
    · intro p hp
      rcases List.mem_append.mp hp with hp | hp
      · exact ⟨p, by simp [(List.mem_filter.mp hp).1], fun _ _ => le_rfl⟩
      · exact ⟨p, List.mem_append.mpr (Or.inr hp), fun _ _ => le_rfl⟩
    · intro p hp
      rcases List.mem_append.mp hp with hp | hp
      · by_cases hc : (domCmp (RN low) s p slice != .aDomB && domCmp (RN low) s p slice != .equal) = true
        · exact ⟨p, List.mem_append.mpr (Or.inl (List.mem_filter.mpr ⟨hp, hc⟩)), fun _ _ => le_rfl⟩
        · refine ⟨s, by simp, fun i hi => ?_⟩
          have hs := domCmpFrom_spec (low := low) s p (List.range slice)
          simp only [Bool.and_eq_true, bne_iff_ne, ne_eq, not_and, not_not] at hc
          by_cases hA : domCmp (RN low) s p slice = .aDomB
          · exact hs.2.1 hA i (List.mem_range.mpr hi)
          · exact (hs.2.2 (hc hA) i (List.mem_range.mpr hi)).le
      · exact ⟨p, List.mem_append.mpr (Or.inr hp), fun _ _ => le_rfl⟩

theorem limitInsert_mem {slice : Nat} {fr : List (List ℝ)} {s x : List ℝ} (h : x ∈ limitInsert (RN low) slice fr s) :
    x ∈ fr ∨ x = s := by
  unfold limitInsert at h
  split at h
  · exact Or.inl h
  · rcases List.mem_append.mp h with h | h
    · exact Or.inl (List.mem_filter.mp h).1
    · exact Or.inr (List.mem_singleton.mp h)

theorem limitSet_aux {slice : Nat} {r p : List ℝ} (others fr : List (List ℝ)) :
    cov slice (others.foldl (fun fr q => limitInsert (RN low) slice fr (limitPoint (RN low) slice p q)) fr) r =
      cov slice (fr ++ others.map (limitPoint (RN low) slice p)) r ∧
    ∀ x ∈ others.foldl (fun fr q => limitInsert (RN low) slice fr (limitPoint (RN low) slice p q)) fr,
      x ∈ fr ∨ ∃ q ∈ others, x = limitPoint (RN low) slice p q := by
  induction others generalizing fr with
  | nil => simp
  | cons q others ih =>
    rw [List.foldl_cons]
    obtain ⟨h1, h2⟩ := ih (limitInsert (RN low) slice fr (limitPoint (RN low) slice p q))
    refine ⟨?_, ?_⟩
    · rw [h1]
      rw [cov_append_congr (limitInsert_cov fr _) rfl, List.append_assoc]
      rfl
    · intro x hx
      rcases h2 x hx with h | ⟨q', hq', rfl⟩
      · rcases limitInsert_mem h with h | h
        · exact Or.inl h
        · exact Or.inr ⟨q, by simp, h⟩
      · exact Or.inr ⟨q', by simp [hq'], rfl⟩

theorem limitSet_cov {slice : Nat} {r p : List ℝ} (others : List (List ℝ)) :
    cov slice (limitSet (RN low) slice p others) r = cov slice (others.map (limitPoint (RN low) slice p)) r := by
  have := (limitSet_aux (low := low) (slice := slice) (r := r) (p := p) others []).1
  rw [List.nil_append] at this
  exact this

theorem limitSet_mem {slice : Nat} {p x : List ℝ} {others : List (List ℝ)} (h : x ∈ limitSet (RN low) slice p others) :
    ∃ q ∈ others, x = limitPoint (RN low) slice p q := by
  have := (limitSet_aux (low := low) (slice := slice) (r := p) (p := p) others []).2 x h
  simpa using this

theorem limitPoint_get {slice : Nat} {p q : List ℝ} {i : Nat} (hi : i < slice) :
    (limitPoint (RN low) slice p q).getD i 0 = max (q.getD i 0) (p.getD i 0) := by
  unfold limitPoint
  simp only [List.getD]
  rw [List.getElem?_map, List.getElem?_range hi]
  simp only [Option.map_some, Option.getD_some, rn_max]
  rfl

theorem limitPoint_length {slice : Nat} {p q : List ℝ} : (limitPoint (RN low) slice p q).length = slice := by
  simp [limitPoint]

theorem gt_low {p : List ℝ} (h : ∀ a ∈ p, Q a) {i : Nat} (hi : i < p.length) : Q (p.getD i 0) := by
  simp only [List.getD]; rw [List.getElem?_eq_getElem hi]; exact h _ (List.getElem_mem _)

theorem limitSet_ok {slice s' : Nat} {r p : List ℝ} {others : List (List ℝ)} (hs : slice ≤ s')
    (hp : LOk Q s' (p :: others) r) : LOk Q slice (limitSet (RN low) slice p others) r := by
  intro x hx
  obtain ⟨q, hq, rfl⟩ := limitSet_mem hx
  have h1 := hp p (by simp)
  have h2 := hp q (by simp [hq])
  refine ⟨limitPoint_length, fun i hi => ?_, ?_⟩
  · rw [limitPoint_get hi]
    exact max_le (h2.2.1 i (by omega)) (h1.2.1 i (by omega))
  · intro a ha
    unfold limitPoint at ha
    obtain ⟨i, hi, rfl⟩ := List.mem_map.mp ha
    rw [rn_max]
    have : i < slice := List.mem_range.mp hi
    rcases max_choice ((RN low).at q i) ((RN low).at p i) with e | e <;> rw [e]
    · exact gt_low h2.2.2 (i := i) (by omega)
    · exact gt_low h1.2.2 (i := i) (by omega)

theorem limitSet_one {p : List ℝ} (others : List (List ℝ)) : (limitSet (RN low) 1 p others).length ≤ 1 := by
  unfold limitSet
  have key : ∀ fr : List (List ℝ), fr.length ≤ 1 →
      (others.foldl (fun fr q => limitInsert (RN low) 1 fr (limitPoint (RN low) 1 p q)) fr).length ≤ 1 := by
    induction others with
    | nil => intro fr h; exact h
    | cons q others ih =>
      intro fr h
      rw [List.foldl_cons]
      apply ih
      generalize limitPoint (RN low) 1 p q = s
      unfold limitInsert
      split
      · exact h
      · rename_i hn
        match fr, h with
        | [], _ => simp
        | [t], _ =>
          have : domCmp (RN low) s t 1 = .aDomB ∨ domCmp (RN low) s t 1 = .equal := by
            have hne : domCmp (RN low) s t 1 ≠ .bDomA := by
              intro hc; apply hn; simp [hc]
            unfold domCmp at hne ⊢
            simp only [List.range_one, domCmpFrom, List.any_nil, Bool.false_eq_true, if_false] at hne ⊢
            split at hne
            · exact absurd rfl hne
            · split at hne
              · rename_i h1 h2; simp [h1, h2]
              · rename_i h1 h2; simp [h1, h2]
          rcases this with h | h <;> simp [h]
  exact key [] (by simp)

theorem hvol_le_single {d : Nat} {p r : List ℝ} {L : List (List ℝ)}
    (h : ∀ q ∈ L, ∀ i : Nat, i < d → p.getD i 0 ≤ q.getD i 0) : hvol d L r ≤ hvol d [p] r := by
  apply hvol_mono
  apply cov_sub
  intro q hq
  exact ⟨p, by simp, h q hq⟩

/-- `exclusive_hv` -/
theorem exclusiveHv_ok {slice : Nat} {r p : List ℝ} {fr L : List (List ℝ)} {rec : List (List ℝ) → Outcome ℝ}
    (hp : ∀ i : Nat, i < slice → p.getD i 0 ≤ r.getD i 0) (hfr : LOk Q slice fr r)
    (hc : cov slice fr r = cov slice L r) (hrec : 2 ≤ fr.length → rec fr = .ok (hvol slice fr r)) :
    exclusiveHv (RN low) r slice rec p fr = .ok (hvol slice [p] r - hvol slice L r) := by
  rw [← hvol_congr hc]
  unfold exclusiveHv
  simp only
  rw [rn_volume hp]
  match fr, hfr, hrec with
  | [], _, _ => simp [hvol_nil]
  | [q], hfr, _ =>
    simp only
    rw [rn_volume (hfr q (by simp)).2.1]
    rfl
  | q :: q' :: fr, hfr, hrec =>
    simp only
    rw [hrec (by simp)]
    rfl

/-- the loop of `compute_hv` -/
theorem wfgLoop_ok {slice : Nat} {r : List ℝ} {rec : List (List ℝ) → Outcome ℝ}
    (hrec : ∀ fr, LOk Q slice fr r → 2 ≤ fr.length → 2 ≤ slice → rec fr = .ok (hvol slice fr r)) (h1 : 1 ≤ slice)
    (s : List (List ℝ)) (H : ℝ) (hs : LOk Q (slice + 1) s r)
    (hsort : s.Pairwise (fun a b => b.getD slice 0 ≤ a.getD slice 0)) :
    wfgLoop (RN low) r slice rec H s = .ok (H + hvol (slice + 1) s r) := by
  induction s generalizing H with
  | nil => simp [wfgLoop, hvol_nil]
  | cons p s ih =>
    rw [List.pairwise_cons] at hsort
    have hp := hs p (by simp)
    unfold wfgLoop
    have hl := limitSet_ok (low := low) (slice := slice) (by omega) hs
    have hex := exclusiveHv_ok (low := low) (rec := rec) (fun i hi => hp.2.1 i (by omega)) hl
      (limitSet_cov (low := low) (slice := slice) (r := r) (p := p) s)
      (fun h2 => hrec _ hl h2 (by
        by_contra hc
        have : slice = 1 := by omega
        subst this
        have := limitSet_one (low := low) (p := p) s
        omega))
    rw [hex]
    simp only [Outcome.bind_ok]
    rw [ih _ (fun q hq => hs q (by simp [hq])) hsort.2]
    congr 1
    have hcons := hvol_cons (d := slice + 1) (L := s) (p := p) (r := r) (l := limitPoint (RN low) (slice + 1) p)
      (fun q hq i hi => limitPoint_get hi)
    have hcov : cov slice (s.map (limitPoint (RN low) (slice + 1) p)) r = cov slice (s.map (limitPoint (RN low) slice p)) r := by
      apply Set.Subset.antisymm <;> apply cov_sub <;> intro x hx <;> obtain ⟨q, hq, rfl⟩ := List.mem_map.mp hx
      · refine ⟨_, List.mem_map.mpr ⟨q, hq, rfl⟩, fun i hi => ?_⟩
        rw [limitPoint_get hi, limitPoint_get (by omega)]
      · refine ⟨_, List.mem_map.mpr ⟨q, hq, rfl⟩, fun i hi => ?_⟩
        rw [limitPoint_get hi, limitPoint_get (by omega)]
    have e1 := hvol_succ (d := slice) (pts := [p]) (r := r) (z := p.getD slice 0) (by simp) (hp.2.1 slice (by omega))
    have e2 := hvol_succ (d := slice) (pts := s.map (limitPoint (RN low) (slice + 1) p)) (r := r) (z := p.getD slice 0) (by
      intro x hx
      obtain ⟨q, hq, rfl⟩ := List.mem_map.mp hx
      rw [limitPoint_get (by omega)]
      exact max_eq_right (hsort.1 q hq)) (hp.2.1 slice (by omega))
    rw [hvol_congr hcov] at e2
    have hle : hvol slice (s.map (limitPoint (RN low) slice p)) r ≤ hvol slice [p] r := by
      apply hvol_le_single
      intro x hx i hi
      obtain ⟨q, hq, rfl⟩ := List.mem_map.mp hx
      rw [limitPoint_get hi]
      exact le_max_right _ _
    change H + |(p.getD slice 0 - r.getD slice 0) * (hvol slice [p] r - hvol slice (s.map (limitPoint (RN low) slice p)) r)|
      + hvol (slice + 1) s r = _
    rw [abs_of_nonpos (mul_nonpos_of_nonpos_of_nonneg (sub_nonpos.mpr (hp.2.1 slice (by omega))) (sub_nonneg.mpr hle))]
    rw [hcons, e1, e2]
    ring

theorem cmpPoints_key (a b : List ℝ) (n : Nat) : cmpPoints (RN low) a b n = true ↔
    (List.range n).reverse.map (fun i => -(a.getD i 0)) < (List.range n).reverse.map (fun i => -(b.getD i 0)) := by
  induction n with
  | zero => simp [cmpPoints]
  | succ n ih =>
    unfold cmpPoints
    have hl : ∀ (x y : List ℝ) (j : Nat), (RN low).lt ((RN low).at x j) ((RN low).at y j) = true ↔ x.getD j 0 < y.getD j 0 :=
      fun x y j => decide_eq_true_iff
    rw [List.range_succ, List.reverse_append]
    simp only [List.reverse_singleton, List.singleton_append, List.map_cons]
    rw [List.cons_lt_cons_iff]
    split
    · rename_i h
      rw [hl] at h
      simp only [neg_lt_neg_iff, h, true_or]
    · rename_i h
      rw [hl] at h
      split
      · rename_i h2
        rw [hl] at h2
        simp only [neg_lt_neg_iff, h, neg_inj, h2.ne, false_and, or_self, Bool.false_eq_true]
      · rename_i h2
        rw [hl] at h2
        have he : a.getD n 0 = b.getD n 0 := le_antisymm (not_lt.mp h) (not_lt.mp h2)
        rw [ih]
        simp only [neg_lt_neg_iff, h, he, lt_irrefl, true_and, false_or]

theorem cov_take {d : Nat} {pts : List (List ℝ)} {r : List ℝ} : cov d pts (r.take d) = cov d pts r := by
  have : pt d (r.take d) = pt d r := by
    funext i
    simp only [pt, List.getD]
    rw [List.getElem?_take, if_pos i.2]
  unfold cov
  rw [this]

/-- inclusion-exclusion for two points -/
theorem two_points {d : Nat} {p q r : List ℝ} (h1 : ∀ i : Nat, i < d → p.getD i 0 ≤ r.getD i 0)
    (h2 : ∀ i : Nat, i < d → q.getD i 0 ≤ r.getD i 0) :
    Outcome.ok ((RN low).sub ((RN low).add (volumeBetween (RN low) p r d) (volumeBetween (RN low) q r d))
      ((List.range d).foldl (fun v i => (RN low).mul v ((RN low).sub ((RN low).at r i)
          ((RN low).max ((RN low).at p i) ((RN low).at q i)))) (RN low).one)) = .ok (hvol d [p, q] r) := by
  rw [rn_volume h1, rn_volume h2]
  have hcons := hvol_cons (d := d) (L := [q]) (p := p) (r := r) (l := limitPoint (RN low) d p)
    (fun q hq i hi => limitPoint_get hi)
  have e : (List.range d).foldl (fun v i => v * (r.getD i 0 - (RN low).max (p.getD i 0) (q.getD i 0))) 1 =
      hvol d [limitPoint (RN low) d p q] r := by
    rw [hvol_single_range (fun i hi => by rw [limitPoint_get hi]; exact max_le (h2 i hi) (h1 i hi))]
    rw [foldl_mul, prod_range_list, one_mul]
    refine Finset.prod_congr rfl (fun i hi => ?_)
    rw [limitPoint_get (Finset.mem_range.mp hi), rn_max, max_comm]
  change Outcome.ok (hvol d [p] r + hvol d [q] r -
    (List.range d).foldl (fun v i => v * (r.getD i 0 - (RN low).max (p.getD i 0) (q.getD i 0))) 1) = _
  rw [e]
  congr 1
  rw [hcons]
  simp only [List.map_cons, List.map_nil]
  ring

/-- `compute_hv` -/
theorem computeHv_ok {srt : Srt ℝ} (hsrt : ValidSort srt) {stop maxDim m : Nat} {r : List ℝ}
    {base : List (List ℝ) → List ℝ → Outcome ℝ} (hm : m = stop ∨ m = 1) (hstop : 2 ≤ stop)
    (hbase : stop ≤ r.length → ∀ pts, LOk Q stop pts (r.take stop) → 3 ≤ pts.length →
      base pts (r.take stop) = .ok (hvol stop pts (r.take stop)))
    (slice level : Nat) (hslr : slice ≤ r.length) (hsl : 2 ≤ slice) (hms : m ≤ slice) (hlev : level + slice ≤ maxDim + m)
    (pts : List (List ℝ)) (hne : pts ≠ []) (hp : LOk Q slice pts r) :
    computeHv (RN low) srt stop maxDim base r slice level pts = .ok (hvol slice pts r) := by
  induction slice generalizing level pts with
  | zero => omega
  | succ s ih =>
    unfold computeHv
    match pts, hne, hp with
    | [p], _, hp => simp only; rw [rn_volume (hp p (by simp)).2.1]
    | [p, q], _, hp =>
      exact two_points (hp p (by simp)).2.1 (hp q (by simp)).2.1
    | p :: q :: q' :: pts, _, hp =>
      simp only
      by_cases hst : s + 1 = stop
      · rw [if_pos hst]
        have := hbase (by omega) (p :: q :: q' :: pts) (by
          intro x hx
          have hx' := hp x hx
          refine ⟨by omega, fun i hi => ?_, hx'.2.2⟩
          have : (r.take stop).getD i 0 = r.getD i 0 := by
            simp only [List.getD]; rw [List.getElem?_take, if_pos hi]
          rw [this]
          exact hx'.2.1 i (by omega)) (by simp)
        have e : hvol stop (p :: q :: q' :: pts) (r.take stop) = hvol stop (p :: q :: q' :: pts) r := by
          unfold hvol; rw [cov_take]
        rw [e] at this
        rw [hst]
        exact this
      · rw [if_neg hst]
        generalize hpts : p :: q :: q' :: pts = P at hp ⊢
        have hswo : swoOn (fun a b : List ℝ => cmpPoints (RN low) a b (s + 1)) P = true :=
          swoOn_of_key (fun a => (List.range (s + 1)).reverse.map (fun i => -(a.getD i 0)))
            (fun a _ b _ => cmpPoints_key a b (s + 1))
        obtain ⟨S, hS, hperm, hsorted⟩ := stdSort_sat hsrt hswo
        rw [hS]
        simp only [Outcome.bind_ok]
        have hmlt : ¬ maxDim ≤ level := by omega
        rw [if_neg hmlt]
        rw [wfgLoop_ok (low := low) (slice := s) (r := r)]
        · change Outcome.ok (0 + _) = _
          rw [zero_add, hvol_congr (cov_perm hperm)]
        · intro fr hfr hlen h2
          exact ih (level + 1) (by omega) h2 (by omega) (by omega) fr (by intro h; rw [h] at hlen; simp at hlen) hfr
        · omega
        · intro x hx
          exact hp x (hperm.mem_iff.mp hx)
        · refine hsorted.imp ?_
          intro a b h
          by_contra hc
          have : cmpPoints (RN low) b a (s + 1) = true := by
            unfold cmpPoints
            have : (RN low).lt ((RN low).at a s) ((RN low).at b s) = true := decide_eq_true (not_le.mp hc)
            rw [if_pos this]
          rw [this] at h
          cases h

theorem LOk.below {d : Nat} {pts : List (List ℝ)} {r : List ℝ} (h : LOk Q d pts r) (hr : r.length = d) : Below d pts r :=
  ⟨hr, fun p hp => ⟨(h p hp).1, (h p hp).2.1⟩⟩

theorem wfg2_ok {srt : Srt ℝ} (hsrt : ValidSort srt) {pts : List (List ℝ)} {r : List ℝ} (hd : 2 ≤ r.length)
    (hne : pts ≠ []) (hp : LOk Q r.length pts r) :
    wfg2 (RN low) srt pts r = .ok (hvol r.length pts r) := by
  unfold wfg2
  have hdim : dimOk r.length pts r = true := by
    unfold dimOk
    simp only [beq_self_eq_true, Bool.true_and, List.all_eq_true, beq_iff_eq]
    exact fun p h => (hp p h).1
  rw [hdim]
  simp only [Bool.not_true, Bool.false_eq_true, if_false]
  refine computeHv_ok hsrt (m := 1) (Or.inr rfl) le_rfl (fun h2 P hP _ => ?_) r.length 1 le_rfl hd (by omega) (by omega) pts
    hne hp
  exact hv2d_ok hsrt (hP.below (by rw [List.length_take]; omega))

theorem bestCompute_ok {srt : Srt ℝ} (hsrt : ValidSort srt) {pts : List (List ℝ)} {r : List ℝ} (hd : 2 ≤ r.length)
    (hne : pts ≠ []) (hp : LOk (low < ·) r.length pts r) :
    bestCompute (RN low) srt pts r = .ok (hvol r.length pts r) := by
  unfold bestCompute
  split
  · rename_i h; rw [h] at hp ⊢; exact hv2d_ok hsrt (hp.below h)
  · split
    · rename_i h; rw [h] at hp ⊢; exact hv3d_ok hsrt (hp.below h) hne (fun p h => (hp p h).2.2)
    · exact wfg2_ok hsrt hd hne hp

theorem wfgBase_ok {srt : Srt ℝ} (hsrt : ValidSort srt) {stop : Nat} {pts : List (List ℝ)} {r : List ℝ}
    (h2 : 2 ≤ stop) (hQ : stop = 2 ∨ ∀ a, Q a → low < a) (hr : r.length = stop) (hne : pts ≠ []) (hp : LOk Q stop pts r) :
    wfgBase (RN low) srt stop pts r = .ok (hvol stop pts r) := by
  subst hr
  unfold wfgBase
  split
  · rename_i h; rw [h] at hp ⊢; exact hv2d_ok hsrt (hp.below h)
  · rename_i h
    refine bestCompute_ok hsrt h2 hne (fun p hm => ⟨(hp p hm).1, (hp p hm).2.1, fun a ha => ?_⟩)
    exact hQ.resolve_left h a ((hp p hm).2.2 a ha)

theorem wfgBase_take {srt : Srt ℝ} (hsrt : ValidSort srt) {stop : Nat} {r : List ℝ} (h2 : 2 ≤ stop)
    (hQ : stop = 2 ∨ ∀ a, Q a → low < a) :
    stop ≤ r.length → ∀ pts, LOk Q stop pts (r.take stop) → 3 ≤ pts.length →
      wfgBase (RN low) srt stop pts (r.take stop) = .ok (hvol stop pts (r.take stop)) := by
  intro h pts hp hl
  exact wfgBase_ok hsrt h2 hQ (by rw [List.length_take]; omega) (by intro h; rw [h] at hl; simp at hl) hp

theorem wfg_ok {srt : Srt ℝ} (hsrt : ValidSort srt) {stop : Nat} (hstop : 2 ≤ stop) (hQ : stop = 2 ∨ ∀ a, Q a → low < a)
    {pts : List (List ℝ)} {r : List ℝ}
    (hd : 2 ≤ r.length) (hne : pts ≠ []) (hp : LOk Q r.length pts r) :
    wfg (RN low) srt stop pts r = .ok (hvol r.length pts r) := by
  unfold wfg
  have hdim : dimOk r.length pts r = true := by
    unfold dimOk
    simp only [beq_self_eq_true, Bool.true_and, List.all_eq_true, beq_iff_eq]
    exact fun p h => (hp p h).1
  rw [if_neg (by omega), hdim]
  simp only [Bool.not_true, Bool.false_eq_true, if_false]
  exact computeHv_ok hsrt (m := 1) (Or.inr rfl) hstop (wfgBase_take hsrt hstop hQ) r.length 1 le_rfl hd (by omega) (by omega)
    pts hne hp

/-- exclusive contribution computed by WFG -/
theorem wfgContribution_ok {srt : Srt ℝ} (hsrt : ValidSort srt) {stop : Nat} (hstop : 2 ≤ stop) (hQ : stop = 2 ∨ ∀ a, Q a → low < a)
    {pts : List (List ℝ)}
    {r : List ℝ} (hd : stop ≤ r.length) (hp : LOk Q r.length pts r) {i : Nat} (hi : i < pts.length) :
    wfgContribution (RN low) srt stop r pts i = .ok (hvol r.length pts r - hvol r.length (pts.eraseIdx i) r) := by
  unfold wfgContribution
  rw [Outcome.get_of_lt hi]
  simp only [Outcome.bind_ok]
  have hperm : pts.Perm (pts[i] :: pts.eraseIdx i) := by
    exact (List.getElem_cons_eraseIdx_perm hi).symm
  have hp' : LOk Q r.length (pts[i] :: pts.eraseIdx i) r := fun x hx => hp x (hperm.mem_iff.mpr hx)
  have hl := limitSet_ok (low := low) (slice := r.length) le_rfl hp'
  rw [exclusiveHv_ok (hp pts[i] (List.getElem_mem _)).2.1 hl (limitSet_cov (low := low) _) (fun h2 =>
    computeHv_ok hsrt (m := stop) (Or.inl rfl) hstop (wfgBase_take hsrt hstop hQ) r.length 2 le_rfl (by omega) hd (by omega) _
      (by intro h; rw [h] at h2; simp at h2) hl)]
  congr 1
  have hcons := hvol_cons (d := r.length) (L := pts.eraseIdx i) (p := pts[i]) (r := r)
    (l := limitPoint (RN low) r.length pts[i]) (fun q hq j hj => limitPoint_get hj)
  rw [hvol_congr (cov_perm hperm), hcons]
  ring

end Verif.Hv
