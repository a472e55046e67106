import Verif.Model.MetaProblem
import Mathlib.Data.Finset.Prod
import Mathlib.Data.Finset.Card
import Mathlib.Data.Rat.Defs
import Mathlib.Algebra.Order.Ring.Rat
import Mathlib.Algebra.BigOperators.Group.List.Basic

/-!
# C28: the Golomb ruler problem
-/

set_option autoImplicit false

namespace Verif.Props

open Verif Meta

/-- **C28.** What the constructor accepts. -/
theorem C28_golomb_ctor (order upper : Nat) :
    (golombCtor order upper = .ok () ↔ 2 ≤ order ∧ 2 ≤ upper ∧ upper * (order - 1) ≤ 2 ^ 32 - 1) ∧
    (golombCtor order upper = .throws .invalidArgument ↔ order < 2 ∨ upper < 2) ∧
    (golombCtor order upper = .throws .overflowError ↔ 2 ≤ order ∧ 2 ≤ upper ∧ 2 ^ 32 ≤ upper * (order - 1)) := by
  unfold golombCtor
  by_cases h1 : order < 2
  · rw [if_pos h1]
    simp only [reduceCtorEq, false_iff, Outcome.throws.injEq, true_iff]
    exact ⟨by omega, by omega, by omega⟩
  rw [if_neg h1]
  by_cases h2 : upper < 2
  · rw [if_pos h2]
    simp only [reduceCtorEq, false_iff, Outcome.throws.injEq, true_iff]
    exact ⟨by omega, by omega, by omega⟩
  rw [if_neg h2]
  have hd : upper > (2 ^ 32 - 1) / (order - 1) ↔ 2 ^ 32 - 1 < upper * (order - 1) := by
    rw [gt_iff_lt, Nat.div_lt_iff_lt_mul (by omega)]
  by_cases h3 : upper > (2 ^ 32 - 1) / (order - 1)
  · rw [if_pos h3]
    have := hd.mp h3
    simp only [reduceCtorEq, false_iff, Outcome.throws.injEq, true_iff]
    exact ⟨by omega, by omega, by omega⟩
  · rw [if_neg h3]
    have := mt hd.mpr h3
    simp only [reduceCtorEq, false_iff, true_iff]
    exact ⟨by omega, by omega, by omega⟩

section
variable {K : Type} [Field K] [LinearOrder K] [IsStrictOrderedRing K]

/-- Pairs of marks of a ruler with `n` gaps. -/
def markPairs (n : Nat) : Finset (Nat × Nat) := ((Finset.range (n + 1)) ×ˢ (Finset.range (n + 1))).filter fun q => q.1 < q.2

/-- Distance of the marks `i` and `j`: the sum of the gaps between them. -/
def markDist (gaps : List K) (q : Nat × Nat) : K := ((gaps.drop q.1).take (q.2 - q.1)).sum

omit [IsStrictOrderedRing K] in
theorem ticks_eq (xs : List K) :
    ticks (Fl.exact K) (xs.map .fin) = (List.range (xs.length + 1)).map fun k => .fin (xs.take k).sum := by
  have go : ∀ (ys : List K) (a : K), partialSum.go (Fl.exact K) (.fin a) (ys.map .fin) =
      (List.range ys.length).map fun k => .fin (a + (ys.take (k + 1)).sum) := by
    intro ys
    induction ys with
    | nil => intro a; rfl
    | cons y ys ih =>
      intro a
      simp only [List.map_cons, partialSum.go, List.length_cons]
      rw [List.range_succ_eq_map, List.map_cons, List.map_map]
      have : (Fl.exact K).add (.fin a) (.fin y) = .fin (a + y) := rfl
      rw [this, ih]
      congr 1
      · simp
      · apply List.map_congr_left
        intro k _
        simp [add_assoc]
  unfold ticks
  rw [List.range_succ_eq_map, List.map_cons, List.map_map]
  cases xs with
  | nil => rfl
  | cons x xs =>
    simp only [List.map_cons, partialSum, List.length_cons]
    rw [List.range_succ_eq_map, List.map_cons, List.map_map, go]
    simp only [List.take_zero, List.sum_nil]
    refine congrArg₂ _ rfl (congrArg₂ _ ?_ ?_)
    · simp
    · apply List.map_congr_left
      intro k _
      simp

/-- The pairs in the order of the loops. -/
def pairList (n : Nat) : List (Nat × Nat) := (List.range n).flatMap fun i => (List.range' (i + 1) (n + 1 - (i + 1))).map fun j => (i, j)

theorem mem_pairList {n : Nat} {q : Nat × Nat} : q ∈ pairList n ↔ q.1 < q.2 ∧ q.2 ≤ n := by
  unfold pairList
  simp only [List.mem_flatMap, List.mem_range, List.mem_map, List.mem_range'_1]
  constructor
  · rintro ⟨i, hi, j, hj, rfl⟩; simp only; omega
  · rintro ⟨h1, h2⟩; exact ⟨q.1, by omega, q.2, by omega, rfl⟩

theorem nodup_pairList (n : Nat) : (pairList n).Nodup := by
  unfold pairList
  rw [List.nodup_flatMap]
  refine ⟨fun i _ => ?_, ?_⟩
  · refine List.Nodup.map (fun a b h => ?_) List.nodup_range'
    simpa using h
  · refine List.Pairwise.imp_of_mem (R := fun a b => a ≠ b) ?_ List.nodup_range
    intro a b _ _ hab q hq1 hq2
    simp only [List.mem_map] at hq1 hq2
    obtain ⟨_, _, rfl⟩ := hq1
    obtain ⟨_, _, h⟩ := hq2
    exact hab (congrArg Prod.fst h).symm

theorem pairList_toFinset (n : Nat) : (pairList n).toFinset = markPairs n := by
  ext q
  rw [List.mem_toFinset, mem_pairList]
  unfold markPairs
  simp only [Finset.mem_filter, Finset.mem_product, Finset.mem_range]
  omega

omit [Field K] [LinearOrder K] [IsStrictOrderedRing K] in
theorem distances_eq (op : Fl.Ops K) (ts : List (Fl K)) (g : Nat → Fl K) (n : Nat) (hl : ts.length = n + 1)
    (hg : ∀ k ≤ n, ts[k]? = some (g k)) :
    distances op ts = .ok ((pairList n).map fun q => op.sub (g q.2) (g q.1)) := by
  have inner : ∀ (i : Nat) (js : List Nat) (ds : List (Fl K)), i ≤ n → (∀ j ∈ js, j ≤ n) →
      js.foldlM (fun ds j => (do
        let a ← Outcome.get ts j
        let b ← Outcome.get ts i
        .ok (ds ++ [op.sub a b]) : Outcome (List (Fl K)))) ds = .ok (ds ++ js.map fun j => op.sub (g j) (g i)) := by
    intro i js
    induction js with
    | nil => intro ds _ _; simp
    | cons j js ih =>
      intro ds hi hjs
      have h1 := Outcome.get_eq_ok_iff.mpr (hg j (hjs j List.mem_cons_self))
      have h2 := Outcome.get_eq_ok_iff.mpr (hg i hi)
      have h3 : (do
        let a ← Outcome.get ts j
        let b ← Outcome.get ts i
        .ok (ds ++ [op.sub a b]) : Outcome (List (Fl K))) = .ok (ds ++ [op.sub (g j) (g i)]) := by
        rw [h1, h2]; rfl
      rw [List.foldlM_cons, h3, Outcome.bind_ok, ih _ hi (fun k hk => hjs k (List.mem_cons_of_mem _ hk))]
      simp
  have outer : ∀ (is : List Nat) (ds : List (Fl K)), (∀ i ∈ is, i < n) →
      is.foldlM (fun ds i => (List.range' (i + 1) (ts.length - (i + 1))).foldlM (fun ds j => (do
        let a ← Outcome.get ts j
        let b ← Outcome.get ts i
        .ok (ds ++ [op.sub a b]) : Outcome (List (Fl K)))) ds) ds =
      .ok (ds ++ (is.flatMap fun i => (List.range' (i + 1) (n + 1 - (i + 1))).map fun j => (i, j)).map
        fun q => op.sub (g q.2) (g q.1)) := by
    intro is
    induction is with
    | nil => intro ds _; simp
    | cons i is ih =>
      intro ds his
      have hi := his i List.mem_cons_self
      rw [List.foldlM_cons, inner i _ _ (by omega) (fun j hj => by rw [List.mem_range'_1] at hj; omega)]
      simp only [Outcome.bind_ok]
      rw [ih _ (fun k hk => his k (List.mem_cons_of_mem _ hk)), hl]
      simp [List.map_flatMap]
  unfold distances
  rw [outer _ _ (fun i hi => by rw [List.mem_range] at hi; omega), hl]
  simp only [List.nil_append]
  rfl

omit [Field K] [IsStrictOrderedRing K] in
theorem unique_go_spec (s : List (Fl K)) (a : Fl K) (h : (a :: s).Pairwise (· ≤ ·)) :
    (unique.go a s).Pairwise (· < ·) ∧ ∀ v, v ∈ unique.go a s ↔ v ∈ s ∧ a < v := by
  induction s generalizing a with
  | nil => simp [unique.go]
  | cons b s ih =>
    simp only [unique.go]
    rw [List.pairwise_cons] at h
    have hab : a ≤ b := h.1 b List.mem_cons_self
    by_cases hab' : a = b
    · subst hab'
      rw [if_pos ((Fl.equalToF_iff _ _).mpr rfl)]
      obtain ⟨i1, i2⟩ := ih a h.2
      refine ⟨i1, fun v => ?_⟩
      rw [i2 v, List.mem_cons]
      constructor
      · rintro ⟨h1, h2⟩; exact ⟨Or.inr h1, h2⟩
      · rintro ⟨rfl | h1, h2⟩
        · exact absurd h2 (lt_irrefl _)
        · exact ⟨h1, h2⟩
    · rw [if_neg (fun h => hab' ((Fl.equalToF_iff _ _).mp h))]
      have hlt := lt_of_le_of_ne hab hab'
      obtain ⟨i1, i2⟩ := ih b h.2
      refine ⟨List.pairwise_cons.mpr ⟨fun v hv => ((i2 v).mp hv).2, i1⟩, fun v => ?_⟩
      rw [List.mem_cons, i2 v, List.mem_cons]
      constructor
      · rintro (rfl | ⟨h1, h2⟩)
        · exact ⟨Or.inl rfl, hlt⟩
        · exact ⟨Or.inr h1, lt_trans hlt h2⟩
      · rintro ⟨rfl | h1, h2⟩
        · exact Or.inl rfl
        · rcases eq_or_ne v b with hvb | hvb
          · exact Or.inl hvb
          · exact Or.inr ⟨h1, lt_of_le_of_ne (List.rel_of_pairwise_cons h.2 h1) (Ne.symm hvb)⟩

omit [Field K] [IsStrictOrderedRing K] in
theorem unique_card (s : List (Fl K)) (h : s.Pairwise (· ≤ ·)) : (unique s).length = s.toFinset.card := by
  cases s with
  | nil => rfl
  | cons a s =>
    obtain ⟨i1, i2⟩ := unique_go_spec s a h
    have hn : (unique (a :: s)).Nodup := by
      have : (unique (a :: s)).Pairwise (· < ·) := List.pairwise_cons.mpr ⟨fun v hv => ((i2 v).mp hv).2, i1⟩
      exact this.imp (fun h => ne_of_lt h)
    rw [← List.toFinset_card_of_nodup hn]
    congr 1
    ext v
    rw [List.mem_toFinset, List.mem_toFinset]
    simp only [unique, List.mem_cons]
    rw [i2 v]
    constructor
    · rintro (h1 | h1)
      · exact Or.inl h1
      · exact Or.inr h1.1
    · rintro (h1 | h1)
      · exact Or.inl h1
      · rcases eq_or_ne v a with hva | hva
        · exact Or.inl hva
        · exact Or.inr ⟨h1, lt_of_le_of_ne (List.rel_of_pairwise_cons h h1) (Ne.symm hva)⟩

omit [IsStrictOrderedRing K] in
/-- **C28.** For any vector of gaps the first value is the length of the ruler and the second the number of pairs of
marks minus the number of different distances. It is never negative, and it is zero exactly when different pairs of marks
have different distances, i.e. for a Golomb ruler. -/
theorem C28_golomb {srt : (Fl K → Fl K → Bool) → List (Fl K) → List (Fl K)} (hs : ValidSort srt) (gaps : List K) :
    ∃ len viol, golombFitness srt (Fl.exact K) (gaps.map .fin) = .ok (.fin len, viol) ∧
      len = gaps.sum ∧
      viol = ((markPairs gaps.length).card : Int) - (((markPairs gaps.length).image (markDist gaps)).card : Int) ∧
      0 ≤ viol ∧
      (viol = 0 ↔ ∀ q ∈ markPairs gaps.length, ∀ q' ∈ markPairs gaps.length, markDist gaps q = markDist gaps q' → q = q') := by
  set n := gaps.length with hn
  have ht := ticks_eq gaps
  have hg : ∀ k ≤ n, (ticks (Fl.exact K) (gaps.map .fin))[k]? = some (Fl.fin (gaps.take k).sum) := by
    intro k hk
    rw [ht, List.getElem?_map, List.getElem?_range (by omega)]; rfl
  have hd := distances_eq (Fl.exact K) _ (fun k => Fl.fin (gaps.take k).sum) n (by rw [ht]; simp [hn]) hg
  have hdist : (pairList n).map (fun q => (Fl.exact K).sub (Fl.fin (gaps.take q.2).sum) (Fl.fin (gaps.take q.1).sum)) =
      ((pairList n).map (markDist gaps)).map Fl.fin := by
    rw [List.map_map]
    apply List.map_congr_left
    intro q hq
    rw [mem_pairList] at hq
    have : (Fl.exact K).sub (Fl.fin (gaps.take q.2).sum) (Fl.fin (gaps.take q.1).sum) =
        Fl.fin ((gaps.take q.2).sum - (gaps.take q.1).sum) := by
      simp [Fl.exact, Fl.sub, Fl.neg, Fl.add, sub_eq_add_neg]
    rw [this]
    simp only [Function.comp, markDist]
    congr 1
    have e : gaps.take q.2 = gaps.take q.1 ++ (gaps.drop q.1).take (q.2 - q.1) := by
      rw [← List.take_add]; congr 1; omega
    rw [e, List.sum_append, add_sub_cancel_left]
  rw [hdist] at hd
  obtain ⟨s, hs1, hs2⟩ := stdSort_sat hs (lt := Fl.lessThanF) (l := ((pairList n).map (markDist gaps)).map Fl.fin)
    (swoOn_of_key id (fun a _ b _ => Fl.lessThanF_iff a b))
  have hperm : s.Perm _ := hs2.1
  have hsorted : s.Pairwise (· ≤ ·) := by
    refine hs2.2.imp (fun {a b} h => ?_)
    have h' : ¬ Fl.lessThanF b a = true := by rw [h]; simp
    exact not_lt.mp (mt (Fl.lessThanF_iff b a).mpr h')
  have hcard : (unique s).length = ((markPairs n).image (markDist gaps)).card := by
    rw [unique_card s hsorted, List.toFinset_eq_of_perm _ _ hperm, ← pairList_toFinset n]
    have : ((List.map (markDist gaps) (pairList n)).map Fl.fin).toFinset =
        (((pairList n).toFinset.image (markDist gaps)).image (Fl.fin : K → Fl K)) := by
      ext v; simp
    rw [this, Finset.card_image_of_injective _ (fun a b h => by injection h)]
  have hlen : (((pairList n).map (markDist gaps)).map Fl.fin).length = (markPairs n).card := by
    rw [← pairList_toFinset n, List.toFinset_card_of_nodup (nodup_pairList n)]; simp
  refine ⟨gaps.sum, _, ?_, rfl, rfl, ?_, ?_⟩
  · unfold golombFitness
    simp only
    rw [hd]
    simp only [Outcome.bind_ok]
    rw [hs1]
    simp only [Outcome.bind_ok, Outcome.ok.injEq, Prod.mk.injEq]
    refine ⟨?_, by rw [hlen, hcard]⟩
    rw [ht, List.range_succ, List.map_append]
    simp [hn]
  · have := Finset.card_image_le (s := markPairs n) (f := markDist gaps)
    omega
  · rw [sub_eq_zero, Nat.cast_inj, eq_comm, Finset.card_image_iff]
    constructor
    · intro h q hq q' hq' he; exact h (Finset.mem_coe.mpr hq) (Finset.mem_coe.mpr hq') he
    · intro h q hq q' hq' he; exact h q (Finset.mem_coe.mp hq) q' (Finset.mem_coe.mp hq') he

end

example : golombFitness insSort (Fl.exact ℚ) [.fin 1, .fin 3, .fin 2] = .ok (.fin 6, 0) ∧
    golombFitness insSort (Fl.exact ℚ) [.fin 1, .fin 2, .fin 1] = .ok (.fin 4, 2) := by decide +kernel

example : golombCtor 5 100 = .ok () ∧ golombCtor 2 (2 ^ 32 - 1) = .ok () ∧ golombCtor 3 (2 ^ 31) = .throws .overflowError := by
  decide +kernel

end Verif.Props
