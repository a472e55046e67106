import Verif.Model.Knn
import Verif.Proof.Front2d

/-!
# Property C51: k nearest neighbours
-/

set_option autoImplicit false

namespace Verif.Props

open Verif Outcome Knn

section
variable {K : Type} [LinearOrder K]

/-- The distance of two points as the arithmetic `op`, `sq` delivers it. -/
def opDist (op : Fl.Ops K) (sq : Fl K → Fl K) (p q : List (Fl K)) : Fl K :=
  sq ((List.zip p q).foldl (fun acc ab =>
    op.add acc (op.mul (op.sub ab.1 ab.2) (op.sub ab.1 ab.2))) op.zero)

/-- `ns` is a correct answer to "the `k` nearest neighbours of point `i` out of `N`" for the distance `d`. -/
structure IsNearest {D : Type} [LinearOrder D] (d : Nat → Nat → D) (N k i : Nat) (ns : List Nat) :
    Prop where
  /-- as many as requested, or all others -/
  length : ns.length = min k (N - 1)
  /-- no repetition -/
  nodup : ns.Nodup
  /-- indices of other points -/
  valid : ∀ j ∈ ns, j < N ∧ j ≠ i
  /-- by increasing distance -/
  sorted : ns.Pairwise (fun a b => d i a ≤ d i b)
  /-- points left out are at least as far as those listed -/
  nearest : ∀ j ∈ ns, ∀ m, m < N → m ≠ i → m ∉ ns → d i j ≤ d i m

private theorem knnDist_eq (op : Fl.Ops K) (sq : Fl K → Fl K) (pts : List (List (Fl K))) (M i j : Nat)
    (p q : List (Fl K)) (hi : pts[i]? = some p) (hj : pts[j]? = some q) (hp : p.length = M)
    (hq : q.length = M) : knnDist op sq pts M i j = .ok (opDist op sq p q) := by
  have h : ((List.range M).foldlM (fun acc l => do
      let pi ← Outcome.get pts i
      let a ← Outcome.get pi l
      let pj ← Outcome.get pts j
      let b ← Outcome.get pj l
      Outcome.ok (op.add acc (op.mul (op.sub a b) (op.sub a b)))) op.zero).Sat (fun r => r =
      ((List.zip p q).take M).foldl (fun acc (ab : Fl K × Fl K) =>
        op.add acc (op.mul (op.sub ab.1 ab.2) (op.sub ab.1 ab.2))) op.zero) := by
    refine range_sat (fun m r => r = ((List.zip p q).take m).foldl (fun acc (ab : Fl K × Fl K) =>
        op.add acc (op.mul (op.sub ab.1 ab.2) (op.sub ab.1 ab.2))) op.zero) M _ (by simp) ?_
    rintro m s hm rfl
    rw [get_eq_ok_iff.mpr hi, get_eq_ok_iff.mpr hj, bind_ok, get_of_lt (by omega), bind_ok, bind_ok,
      get_of_lt (by omega), bind_ok, sat_ok]
    rw [List.take_add_one, List.getElem?_eq_getElem (by simp; omega)]
    simp
  obtain ⟨r, h1, rfl⟩ := h
  rw [knnDist, h1, bind_ok, opDist, List.take_of_length_le (by simp; omega)]

/-- C51, for every arithmetic (rounded included), square root and sort routine. -/
theorem C51_knn_any_arithmetic (op : Fl.Ops K) (sq : Fl K → Fl K)
    (srt : (Nat → Nat → Bool) → List Nat → List Nat) (hsrt : ValidSort srt)
    (pts : List (List (Fl K))) (k M : Nat) (hM : ∀ p ∈ pts, p.length = M) (hk : k < 2 ^ 31) :
    (knn op sq srt pts k).Sat (fun r => r.length = pts.length ∧
      ∀ (i : Nat) (ns : List Nat), r[i]? = some ns →
        IsNearest (fun a b => opDist op sq (pts.getD a []) (pts.getD b [])) pts.length k i ns) := by
  unfold knn
  match hpts : pts with
  | [] => simp
  | p0 :: ps =>
    simp only []
    rw [← hpts]
    rw [← hpts] at hM
    have hp0 : p0.length = M := hM p0 (by simp [hpts])
    rw [if_neg (by
      simp only [Bool.not_eq_true', Bool.not_eq_false, List.all_eq_true, beq_iff_eq]
      intro p hp; rw [hM p hp, hp0])]
    clear hpts
    set d := fun a b => opDist op sq (pts.getD a []) (pts.getD b []) with hd
    set N := pts.length with hN
    have hgetD : ∀ i, i < N → pts[i]? = some (pts.getD i []) ∧ (pts.getD i []).length = M := by
      intro i hi
      have e : pts.getD i [] = pts[i] := by
        simp only [List.getD]; rw [List.getElem?_eq_getElem hi]; rfl
      rw [e]
      exact ⟨List.getElem?_eq_getElem hi, hM _ (List.getElem_mem _)⟩
    have step : ∀ i ∈ List.range N, ((do
        let dists ← (List.range N).mapM (fun j => knnDist op sq pts p0.length i j)
        let idxs ← stdSort srt (knnCmp dists) (List.range N)
        Outcome.ok (idxs.filter (fun j => j != i))) : Outcome (List Nat)).Sat
          (IsNearest d N (N - 1) i) := by
      intro i hi
      rw [List.mem_range] at hi
      rw [hp0, mapM_ok (fun j => d i j) _ (by
        intro j hj
        rw [List.mem_range] at hj
        exact knnDist_eq op sq pts M i j _ _ (hgetD i hi).1 (hgetD j hj).1 (hgetD i hi).2 (hgetD j hj).2),
        bind_ok]
      have hc : ∀ a ∈ List.range N, ∀ b ∈ List.range N,
          knnCmp ((List.range N).map (fun j => d i j)) a b = true ↔ d i a < d i b := by
        intro a ha b hb
        rw [List.mem_range] at ha hb
        unfold knnCmp
        rw [Fl.lessThanF_iff]
        simp [List.getD, ha, hb]
      refine (stdSort_sat hsrt (swoOn_of_key (fun j => d i j) hc)).bind ?_
      rintro s ⟨hperm, hsort⟩
      rw [sat_ok]
      have hnd : s.Nodup := hperm.nodup_iff.mpr List.nodup_range
      have hmem : ∀ j, j ∈ s ↔ j < N := fun j => by rw [hperm.mem_iff, List.mem_range]
      refine ⟨?_, hnd.filter _, ?_, ?_, ?_⟩
      · have h1 : (s.filter (fun j => j != i)) = s.erase i := by
          rw [List.Nodup.erase_eq_filter hnd]
        rw [h1, List.length_erase_of_mem ((hmem i).mpr hi), hperm.length_eq, List.length_range]
        omega
      · intro j hj
        rw [List.mem_filter] at hj
        exact ⟨(hmem j).mp hj.1, by simpa using hj.2⟩
      · refine List.Pairwise.filter _ ?_
        refine List.Pairwise.imp_of_mem ?_ hsort
        intro a b ha hb h
        rw [← Bool.not_eq_true, hc b (hperm.mem_iff.mp hb) a (hperm.mem_iff.mp ha)] at h
        exact not_lt.mp h
      · intro j hj m hm hmi hn
        exact absurd (List.mem_filter.mpr ⟨(hmem m).mpr hm, by simpa using hmi⟩) hn
    refine (MO.mapM_sat _ step).bind ?_
    intro r hr
    have hlen : r.length = N := by rw [← hr.length_eq, List.length_range]
    have hget : ∀ (i : Nat) (ns : List Nat), r[i]? = some ns → i < N ∧ IsNearest d N (N - 1) i ns := by
      intro i ns h
      obtain ⟨hi, rfl⟩ := List.getElem?_eq_some_iff.mp h
      rw [List.forall₂_iff_get] at hr
      have := hr.2 i (by simpa [hlen] using hi) hi
      simp at this
      exact ⟨by omega, this⟩
    by_cases hkN : k < N - 1
    · rw [if_pos hkN, if_pos hk, sat_ok]
      refine ⟨by simpa using hlen, ?_⟩
      intro i ns h
      rw [List.getElem?_map, Option.map_eq_some_iff] at h
      obtain ⟨ns', h1, rfl⟩ := h
      obtain ⟨hi, hn⟩ := hget i ns' h1
      have hns : ns'.length = N - 1 := by rw [hn.length]; omega
      refine ⟨?_, hn.nodup.sublist (List.take_sublist _ _), ?_, hn.sorted.sublist (List.take_sublist _ _), ?_⟩
      · rw [List.length_take, hns]
      · intro j hj; exact hn.valid j (List.mem_of_mem_take hj)
      · intro j hj m hm hmi hmn
        by_cases hm' : m ∈ ns'
        · rw [← List.take_append_drop k ns'] at hm'
          rcases List.mem_append.mp hm' with h | h
          · exact absurd h hmn
          · have := hn.sorted
            rw [← List.take_append_drop k ns', List.pairwise_append] at this
            exact this.2.2 j hj m h
        · exact hn.nearest j (List.mem_of_mem_take hj) m hm hmi hm'
    · rw [if_neg hkN, sat_ok]
      refine ⟨hlen, ?_⟩
      intro i ns h
      obtain ⟨hi, hn⟩ := hget i ns h
      refine ⟨?_, hn.nodup, hn.valid, hn.sorted, hn.nearest⟩
      rw [hn.length]; omega

/-- C51: points of different sizes are rejected. -/
theorem C51_knn_throws (op : Fl.Ops K) (sq : Fl K → Fl K)
    (srt : (Nat → Nat → Bool) → List Nat → List Nat) (pts : List (List (Fl K))) (k : Nat)
    (h : ∃ p ∈ pts, ∃ q ∈ pts, p.length ≠ q.length) :
    knn op sq srt pts k = .throws .invalidArgument := by
  unfold knn
  match pts, h with
  | [], h => simp at h
  | p0 :: ps, h =>
    simp only []
    rw [if_pos]
    by_contra hc
    simp only [Bool.not_eq_true', Bool.not_eq_false, List.all_eq_true, beq_iff_eq] at hc
    obtain ⟨p, hp, q, hq, hne⟩ := h
    exact hne ((hc p hp).trans (hc q hq).symm)

end

/-- squared Euclidean distance -/
def sqDist (p q : List ℝ) : ℝ := (List.zipWith (fun a b => (a - b) ^ 2) p q).sum

private theorem foldl_exact (l : List (Fl ℝ × Fl ℝ)) (p q : List ℝ) (acc : ℝ)
    (h : l = List.zip (p.map Fl.fin) (q.map Fl.fin)) :
    l.foldl (fun acc ab => (Fl.exact ℝ).add acc ((Fl.exact ℝ).mul ((Fl.exact ℝ).sub ab.1 ab.2)
      ((Fl.exact ℝ).sub ab.1 ab.2))) (Fl.fin acc) = Fl.fin (acc + sqDist p q) := by
  induction p generalizing q l acc with
  | nil => subst h; simp [sqDist]
  | cons a p ih =>
    cases q with
    | nil => subst h; simp [sqDist]
    | cons b q =>
      subst h
      simp only [List.map_cons, List.zip_cons_cons, List.foldl_cons]
      have e : (Fl.exact ℝ).add (Fl.fin acc) ((Fl.exact ℝ).mul ((Fl.exact ℝ).sub (Fl.fin a) (Fl.fin b))
          ((Fl.exact ℝ).sub (Fl.fin a) (Fl.fin b))) = Fl.fin (acc + (a - b) ^ 2) := by
        simp only [Fl.exact, Fl.sub, Fl.neg, Fl.add, Fl.mul]
        congr 2; ring
      rw [e, ih _ q _ rfl]
      simp [sqDist, add_assoc]

private theorem sqDist_nonneg (p q : List ℝ) : 0 ≤ sqDist p q := by
  unfold sqDist
  apply List.sum_nonneg
  intro x hx
  obtain ⟨i, hi, rfl⟩ := List.mem_iff_getElem.mp hx
  simp; positivity

/-- C51 in real arithmetic: nearest with respect to the Euclidean distance (equivalently its square). -/
theorem C51_knn_euclidean (srt : (Nat → Nat → Bool) → List Nat → List Nat) (hsrt : ValidSort srt)
    (pts : List (List ℝ)) (k M : Nat) (hM : ∀ p ∈ pts, p.length = M) (hk : k < 2 ^ 31) :
    (knn (Fl.exact ℝ) Fl.sqrtR srt (pts.map (fun p => p.map Fl.fin)) k).Sat (fun r =>
      r.length = pts.length ∧ ∀ (i : Nat) (ns : List Nat), r[i]? = some ns →
        IsNearest (fun a b => sqDist (pts.getD a []) (pts.getD b [])) pts.length k i ns) := by
  refine (C51_knn_any_arithmetic (Fl.exact ℝ) Fl.sqrtR srt hsrt _ k M ?_ hk).mono ?_
  · intro p hp
    obtain ⟨q, hq, rfl⟩ := List.mem_map.mp hp
    simpa using hM q hq
  · rintro r ⟨h1, h2⟩
    rw [List.length_map] at h1
    refine ⟨h1, ?_⟩
    intro i ns h
    have hn := h2 i ns h
    rw [List.length_map] at hn
    have hd : ∀ a b, a < pts.length → b < pts.length →
        opDist (Fl.exact ℝ) Fl.sqrtR ((pts.map (fun p => p.map Fl.fin)).getD a [])
          ((pts.map (fun p => p.map Fl.fin)).getD b []) =
        Fl.fin (Real.sqrt (sqDist (pts.getD a []) (pts.getD b []))) := by
      intro a b ha hb
      have e1 : (pts.map (fun p => p.map Fl.fin)).getD a [] = (pts.getD a []).map Fl.fin := by
        simp [List.getD, ha]
      have e2 : (pts.map (fun p => p.map Fl.fin)).getD b [] = (pts.getD b []).map Fl.fin := by
        simp [List.getD, hb]
      rw [e1, e2, opDist]
      have := foldl_exact _ (pts.getD a []) (pts.getD b []) 0 rfl
      rw [show (Fl.exact ℝ).zero = Fl.fin (0 : ℝ) from rfl, this, zero_add, Fl.sqrtR,
        if_neg (not_lt.mpr (sqDist_nonneg _ _))]
    have hi : i < pts.length := by
      have := (List.getElem?_eq_some_iff.mp h).1; omega
    have hle : ∀ a b, a < pts.length → b < pts.length →
        (opDist (Fl.exact ℝ) Fl.sqrtR ((pts.map (fun p => p.map Fl.fin)).getD i [])
          ((pts.map (fun p => p.map Fl.fin)).getD a []) ≤
         opDist (Fl.exact ℝ) Fl.sqrtR ((pts.map (fun p => p.map Fl.fin)).getD i [])
          ((pts.map (fun p => p.map Fl.fin)).getD b []) ↔
        sqDist (pts.getD i []) (pts.getD a []) ≤ sqDist (pts.getD i []) (pts.getD b [])) := by
      intro a b ha hb
      rw [hd i a hi ha, hd i b hi hb, Fl.fin_le_fin, Real.sqrt_le_sqrt_iff (sqDist_nonneg _ _)]
    refine ⟨hn.length, hn.nodup, hn.valid, ?_, ?_⟩
    · refine List.Pairwise.imp_of_mem ?_ hn.sorted
      intro a b ha hb h
      exact (hle a b (hn.valid a ha).1 (hn.valid b hb).1).mp h
    · intro j hj m hm hmi hmn
      exact (hle j m (hn.valid j hj).1 hm).mp (hn.nearest j hj m hm hmi hmn)

example : knn (Fl.exact ℚ) id insSort [[Fl.fin 0], [.fin 5], [.fin 1], [.fin 7]] 2 =
    .ok [[2, 1], [3, 2], [0, 1], [1, 2]] := by decide +kernel

end Verif.Props
