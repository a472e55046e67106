import Verif.Model.Discrepancy
import Verif.Proof.Primes
import Verif.Proof.Front2d
import Mathlib.Data.Nat.Digits.Defs
import Mathlib.Algebra.BigOperators.Field
import Mathlib.Data.Nat.PrimeFin
import Mathlib.Algebra.Order.Floor.Ring
import Mathlib.Tactic.FieldSimp
import Mathlib.Tactic.Ring

/-!
# Properties C52, C53, C54: low-discrepancy sequences, primes, sampling from a simplex
-/

set_option autoImplicit false

namespace Verif.Props

open Verif Outcome Disc

/-! ## C53 -/

/-- C53: `prime(n)` is 1 for `n = 0`, the `n`-th prime for `1 ≤ n ≤ 1600`, and throws above. -/
theorem C53_prime (n : Nat) :
    (n = 0 → prime n = .ok 1) ∧
    (1 ≤ n → n ≤ 1600 → prime n = .ok (Nat.nth Nat.Prime (n - 1))) ∧
    (1600 < n → prime n = .throws .invalidArgument) := by
  have hlen : primeTable.length = 1601 := by decide +kernel
  refine ⟨?_, ?_, ?_⟩
  · rintro rfl
    rw [prime, hlen, if_neg (by omega), table_eq]
    rfl
  · intro h1 h2
    obtain ⟨k, rfl⟩ : ∃ k, n = k + 1 := ⟨n - 1, by omega⟩
    rw [prime, hlen, if_neg (by omega), get_of_lt (by omega)]
    congr 1
    have h3 : primeTable[k + 1]? = some (primeTable[k + 1]'(by omega)) :=
      List.getElem?_eq_getElem (by omega)
    generalize primeTable[k + 1]'(by omega) = a at h3 ⊢
    rw [table_eq, List.getElem?_cons_succ] at h3
    have hf : (List.range 13500).filter smallPrime =
        (List.range 13500).filter (fun n => decide (Nat.Prime n)) := by
      apply List.filter_congr
      intro x hx
      rw [Bool.eq_iff_iff, decide_eq_true_eq]
      exact smallPrime_iff x (List.mem_range.mp hx)
    rw [hf] at h3
    have := filter_range_nth Nat.Prime 13500 k _ h3
    rw [Nat.add_sub_cancel, this]
  · intro h
    rw [prime, hlen, if_pos (by omega)]

/-! ## C52 -/

section c52
variable {K : Type} [Field K] [LinearOrder K] [IsStrictOrderedRing K]

/-- base-`b` radical inverse of `n`: the digits of `n` mirrored at the radix point -/
def radicalInverse (K : Type) [Field K] (b n : Nat) : K :=
  ∑ i ∈ Finset.range (Nat.digits b n).length, (((Nat.digits b n).getD i 0 : Nat) : K) / (b : K) ^ (i + 1)

omit [LinearOrder K] [IsStrictOrderedRing K] in
private theorem ri_zero (b : Nat) : radicalInverse K b 0 = 0 := by simp [radicalInverse]

private theorem ri_pos (b n : Nat) (hb : 2 ≤ b) (hn : 0 < n) :
    radicalInverse K b n = (((n % b : Nat) : K) + radicalInverse K b (n / b)) / (b : K) := by
  have hb0 : (b : K) ≠ 0 := by
    have : (0 : K) < b := by exact_mod_cast (by omega : 0 < b)
    exact this.ne'
  unfold radicalInverse
  rw [Nat.digits_def' (by omega) hn, List.length_cons, Finset.sum_range_succ']
  simp only [List.getD_cons_succ, List.getD_cons_zero]
  rw [add_div, add_comm, Finset.sum_div]
  congr 1
  · simp
  · apply Finset.sum_congr rfl
    intro i _
    rw [div_div, ← pow_succ]

private theorem ri_bounds (b : Nat) (hb : 2 ≤ b) (n : Nat) :
    (0 : K) ≤ radicalInverse K b n ∧ radicalInverse K b n < 1 := by
  have hb0 : (0 : K) < b := by exact_mod_cast (by omega : 0 < b)
  induction n using Nat.strong_induction_on with
  | _ n ih =>
    rcases Nat.eq_zero_or_pos n with rfl | hn
    · rw [ri_zero]; exact ⟨le_refl _, one_pos⟩
    · rw [ri_pos b n hb hn]
      obtain ⟨h1, h2⟩ := ih (n / b) (Nat.div_lt_self hn (by omega))
      have h3 : ((n % b : Nat) : K) + 1 ≤ b := by
        exact_mod_cast Nat.mod_lt n (by omega : 0 < b)
      have h4 : (0 : K) ≤ ((n % b : Nat) : K) := Nat.cast_nonneg _
      refine ⟨div_nonneg (by linarith) hb0.le, ?_⟩
      rw [div_lt_one hb0]
      linarith

private theorem ri_inj (b : Nat) (hb : 2 ≤ b) (m n : Nat)
    (h : radicalInverse K b m = radicalInverse K b n) : m = n := by
  have hb0 : (0 : K) < b := by exact_mod_cast (by omega : 0 < b)
  have key : ∀ m n, radicalInverse K b m = radicalInverse K b n →
      m % b = n % b ∧ radicalInverse K b (m / b) = radicalInverse K b (n / b) := by
    intro m n h
    have form : ∀ n, radicalInverse K b n * b =
        ((n % b : Nat) : K) + radicalInverse K b (n / b) := by
      intro n
      rcases Nat.eq_zero_or_pos n with rfl | hn
      · simp [ri_zero]
      · rw [ri_pos b n hb hn, div_mul_cancel₀ _ hb0.ne']
    have e : ((m % b : Nat) : K) + radicalInverse K b (m / b) =
        ((n % b : Nat) : K) + radicalInverse K b (n / b) := by rw [← form, ← form, h]
    obtain ⟨l1, u1⟩ := ri_bounds (K := K) b hb (m / b)
    obtain ⟨l2, u2⟩ := ri_bounds (K := K) b hb (n / b)
    have hd : m % b = n % b := by
      rcases Nat.lt_trichotomy (m % b) (n % b) with hlt | heq | hgt
      · have : ((m % b : Nat) : K) + 1 ≤ ((n % b : Nat) : K) := by exact_mod_cast hlt
        linarith
      · exact heq
      · have : ((n % b : Nat) : K) + 1 ≤ ((m % b : Nat) : K) := by exact_mod_cast hgt
        linarith
    rw [hd] at e
    exact ⟨hd, by linarith⟩
  have main : ∀ k m n, m + n ≤ k → radicalInverse K b m = radicalInverse K b n → m = n := by
    intro k
    induction k with
    | zero => intro m n h _; omega
    | succ k ih =>
      intro m n hk h
      obtain ⟨h1, h2⟩ := key m n h
      by_cases h0 : m = 0 ∧ n = 0
      · omega
      · have hlt : m / b + n / b < m + n := by
          rcases Nat.eq_zero_or_pos m with hm | hm
          · have hn : 0 < n := by omega
            have := Nat.div_lt_self hn (by omega : 1 < b)
            simp [hm]; omega
          · have := Nat.div_lt_self hm (by omega : 1 < b)
            have := Nat.div_le_self n b
            omega
        have h3 := ih (m / b) (n / b) (by omega) h2
        rw [← Nat.div_add_mod m b, ← Nat.div_add_mod n b, h3, h1]
  exact main (m + n) m n le_rfl h

private theorem vdcLoop_eq (b : Nat) (hb : 2 ≤ b) (fuel i : Nat) (hf : i < fuel) (ret f : K) :
    vdcLoop b fuel ret f i = .ok (ret + f * b * radicalInverse K b i) := by
  have hb0 : (b : K) ≠ 0 := by
    have : (0 : K) < b := by exact_mod_cast (by omega : 0 < b)
    exact this.ne'
  induction fuel generalizing i ret f with
  | zero => omega
  | succ fuel ih =>
    unfold vdcLoop
    split
    · rename_i hi
      rw [ih (i / b) (by have := Nat.div_lt_self hi (by omega : 1 < b); omega), ri_pos b i hb hi]
      congr 1
      field_simp
      ring
    · rename_i hi
      have : i = 0 := by omega
      subst this
      rw [ri_zero]; simp

/-- C52: bases below 2 are rejected. -/
theorem C52_vdc_base (b n : Nat) :
    (b < 2 → Vdc.make b n = .throws .invalidArgument) ∧ (2 ≤ b → Vdc.make b n = .ok ⟨b, n⟩) := by
  constructor
  · intro h; simp [Vdc.make, h]
  · intro h; simp [Vdc.make]; omega

/-- C52: one call returns the radical inverse of the counter and advances the (32 bit) counter. -/
theorem C52_vdc_next (b c : Nat) (hb : 2 ≤ b) :
    (Vdc.next ⟨b, c⟩ : Outcome (K × Vdc)) =
      .ok (radicalInverse K b c, ⟨b, (c + 1) % 2 ^ 32⟩) := by
  have hb0 : (b : K) ≠ 0 := by
    have : (0 : K) < b := by exact_mod_cast (by omega : 0 < b)
    exact this.ne'
  unfold Vdc.next
  rw [vdcLoop_eq b hb _ _ (Nat.lt_succ_self _)]
  simp [hb0]

/-- C52: call number `n` (counted from 0) of `van_der_corput(b, start)` returns the base-`b` radical
inverse of `start + n`, as long as the 32 bit counter does not wrap. -/
theorem C52_vdc_value (b start n : Nat) (hb : 2 ≤ b) (h : start + n < 2 ^ 32) :
    ∃ s', (vdcRun ⟨b, start⟩ n : Outcome (K × Vdc)) = .ok (radicalInverse K b (start + n), s') := by
  induction n generalizing start with
  | zero => exact ⟨_, C52_vdc_next b start hb⟩
  | succ n ih =>
    rw [vdcRun, C52_vdc_next b start hb, bind_ok, Nat.mod_eq_of_lt (by omega)]
    obtain ⟨s', hs'⟩ := ih (start + 1) (by omega)
    exact ⟨s', by rw [hs', show start + 1 + n = start + (n + 1) by omega]⟩

/-- C52: the values lie in `[0, 1)`. -/
theorem C52_radical_inverse_bounds (b n : Nat) (hb : 2 ≤ b) :
    (0 : K) ≤ radicalInverse K b n ∧ radicalInverse K b n < 1 := ri_bounds b hb n

/-- C52: different indices give different values. -/
theorem C52_radical_inverse_injective (b m n : Nat) (hb : 2 ≤ b)
    (h : radicalInverse K b m = radicalInverse K b n) : m = n := ri_inj b hb m n h

/-- the `i`-th prime, counted from 0 -/
noncomputable def nthPrime (i : Nat) : Nat := Nat.nth Nat.Prime i

private theorem nthPrime_ge (i : Nat) : 2 ≤ nthPrime i :=
  (Nat.nth_mem_of_infinite Nat.infinite_setOfPred_prime i).two_le

/-- C52: `halton(dim, start)` can be built for `dim ≤ 1600`; call number `n` returns the radical inverses of
`start + n` in the first `dim` primes. Larger dimensions are rejected. -/
theorem C52_halton (dim start n : Nat) :
    (dim ≤ 1600 → start + n < 2 ^ 32 → ∃ h s', haltonMake dim start = .ok h ∧
      (haltonRun h n : Outcome (List K × List Vdc)) =
        .ok ((List.range dim).map (fun i => radicalInverse K (nthPrime i) (start + n)), s')) ∧
    (1600 < dim → haltonMake dim start = .throws .invalidArgument) := by
  constructor
  · intro hd hn
    refine ⟨(List.range dim).map (fun i => ⟨nthPrime i, start⟩), ?_⟩
    have hmk : haltonMake dim start = .ok ((List.range dim).map (fun i => ⟨nthPrime i, start⟩)) := by
      unfold haltonMake
      apply mapM_ok
      intro i hi
      rw [List.mem_range] at hi
      rw [(C53_prime (i + 1)).2.1 (by omega) (by omega), bind_ok, Nat.add_sub_cancel]
      exact (C52_vdc_base _ _).2 (nthPrime_ge i)
    have hnext : ∀ c, (haltonNext ((List.range dim).map (fun i => ⟨nthPrime i, c⟩)) :
        Outcome (List K × List Vdc)) =
        .ok ((List.range dim).map (fun i => radicalInverse K (nthPrime i) c),
          (List.range dim).map (fun i => ⟨nthPrime i, (c + 1) % 2 ^ 32⟩)) := by
      intro c
      unfold haltonNext
      rw [mapM_ok (fun v => (radicalInverse K v.base v.counter,
        (⟨v.base, (v.counter + 1) % 2 ^ 32⟩ : Vdc)))]
      · simp only [bind_ok, pure_eq, List.map_map]
        rfl
      · intro v hv
        obtain ⟨i, _, rfl⟩ := List.mem_map.mp hv
        exact C52_vdc_next _ _ (nthPrime_ge i)
    clear hd
    have hrun : ∀ n start, start + n < 2 ^ 32 → ∃ s', (haltonRun ((List.range dim).map
        (fun i => ⟨nthPrime i, start⟩)) n : Outcome (List K × List Vdc)) =
        .ok ((List.range dim).map (fun i => radicalInverse K (nthPrime i) (start + n)), s') := by
      intro n
      induction n with
      | zero => intro start _; exact ⟨_, hnext start⟩
      | succ n ih =>
        intro start h
        rw [haltonRun, hnext start, bind_ok, Nat.mod_eq_of_lt (by omega)]
        obtain ⟨s', hs'⟩ := ih (start + 1) (by omega)
        exact ⟨s', by rw [hs', show start + 1 + n = start + (n + 1) by omega]⟩
    obtain ⟨s', hs'⟩ := hrun n start hn
    exact ⟨s', hmk, hs'⟩
  · intro hd
    unfold haltonMake
    obtain ⟨k, rfl⟩ : ∃ k, dim = 1601 + k := ⟨dim - 1601, by omega⟩
    rw [List.range_add, List.mapM_append, List.range_succ, List.mapM_append]
    rw [mapM_ok (fun i => (⟨nthPrime i, start⟩ : Vdc))]
    · rw [bind_ok, List.mapM_cons, (C53_prime (1600 + 1)).2.2 (by omega)]
      rfl
    · intro i hi
      rw [List.mem_range] at hi
      rw [(C53_prime (i + 1)).2.1 (by omega) (by omega), bind_ok, Nat.add_sub_cancel]
      exact (C52_vdc_base _ _).2 (nthPrime_ge i)

/-- C52: a constructed Halton generator holds one van der Corput generator per dimension, with bases of at
least two. -/
theorem C52_halton_state (dim start : Nat) (h : List Vdc) (hmk : haltonMake dim start = .ok h) :
    h.length = dim ∧ ∀ v ∈ h, 2 ≤ v.base := by
  by_cases hd : dim ≤ 1600
  · have : haltonMake dim start = .ok ((List.range dim).map (fun i => ⟨nthPrime i, start⟩)) := by
      unfold haltonMake
      apply mapM_ok
      intro i hi
      rw [List.mem_range] at hi
      rw [(C53_prime (i + 1)).2.1 (by omega) (by omega), bind_ok, Nat.add_sub_cancel]
      exact (C52_vdc_base _ _).2 (nthPrime_ge i)
    rw [this] at hmk
    cases hmk
    refine ⟨by simp, ?_⟩
    intro v hv
    obtain ⟨i, _, rfl⟩ := List.mem_map.mp hv
    exact nthPrime_ge i
  · rw [(C52_halton (K := ℚ) dim start 0).2 (by omega)] at hmk
    exact absurd hmk (by simp)

end c52

example : (vdcRun ⟨10, 0⟩ 12 : Outcome (ℚ × Vdc)) = .ok (21 / 100, ⟨10, 13⟩) := by decide +kernel
example : (do let h ← haltonMake 2 0; haltonRun h 5 : Outcome (List ℚ × List Vdc)) =
    .ok ([5 / 8, 7 / 9], [⟨2, 6⟩, ⟨3, 6⟩]) := by decide +kernel

/-! ## C54 -/

section c54
variable {K : Type} [Field K] [LinearOrder K] [IsStrictOrderedRing K]

omit [LinearOrder K] [IsStrictOrderedRing K] in
/-- the loop computing differences -/
private theorem diff_loop (l : List K) :
    ((List.range (l.length - 1)).foldlM diffStep (l.map Fl.fin)).Sat (fun r =>
      r.length = l.length ∧ ∀ i (h : i + 1 < l.length), r[i]? = some (.fin (l[i + 1] - l[i]))) := by
  refine (range_sat (fun m r => r.length = l.length ∧
    (∀ i (h : i + 1 < l.length), i < m → r[i]? = some (.fin (l[i + 1] - l[i]))) ∧
    (∀ i (h : i < l.length), m ≤ i → r[i]? = some (.fin l[i]))) _ _ ?_ ?_).mono ?_
  · refine ⟨by simp, by simp, ?_⟩
    intro i h _
    simp [h]
  · rintro m r hm ⟨h1, h2, h3⟩
    have e1 := h3 (m + 1) (by omega) (by omega)
    have e0 := h3 m (by omega) le_rfl
    unfold diffStep
    rw [get_eq_ok_iff.mpr e1, get_eq_ok_iff.mpr e0]
    simp only [bind_ok]
    rw [set_of_lt (by omega), sat_ok]
    refine ⟨by simpa using h1, ?_, ?_⟩
    · intro i h hi
      by_cases him : i = m
      · subst him
        rw [List.getElem?_set_self (by omega)]
        simp [Fl.sub, Fl.neg, Fl.add, sub_eq_add_neg]
      · rw [List.getElem?_set_ne (by omega)]
        exact h2 i h (by omega)
    · intro i h hi
      rw [List.getElem?_set_ne (by omega)]
      exact h3 i h (by omega)
  · rintro r ⟨h1, h2, _⟩
    exact ⟨h1, fun i h => h2 i h (by omega)⟩

omit [LinearOrder K] [IsStrictOrderedRing K] in
private theorem telescope (l : List K) (g : List K) (hl : 0 < l.length) (hg : g.length + 1 = l.length)
    (h : ∀ i (h1 : i < g.length) (h2 : i + 1 < l.length), g[i] = l[i + 1] - l[i]) :
    g.sum = l[l.length - 1] - l[0] := by
  induction g generalizing l with
  | nil =>
    simp at hg
    simp [← hg]
  | cons a g ih =>
    match l, hl, hg with
    | [x], _, hg => simp at hg
    | x :: y :: l, _, hg =>
      have h0 := h 0 (by simp) (by simp)
      simp at h0
      have := ih (y :: l) (by simp) (by simpa using hg) (by
        intro i h1 h2
        have := h (i + 1) (by simpa using h1) (by simpa using h2)
        simpa using this)
      rw [List.sum_cons, this, h0]
      simp

/-- C54 (partial): a non-empty vector of numbers in `[0,1]` is mapped to a vector with one more entry,
all non-negative, summing to one. Missing: NaN entries are not rejected, see `C54_nan_accepted`. -/
theorem C54_simplex_partial (srt : (Fl K → Fl K → Bool) → List (Fl K) → List (Fl K))
    (hsrt : ValidSort srt) (v : List K) (hne : v ≠ []) (hv : ∀ x ∈ v, 0 ≤ x ∧ x ≤ 1) :
    (sampleFromSimplex srt (v.map Fl.fin)).Sat (fun r => ∃ g : List K, r = g.map Fl.fin ∧
      g.length = v.length + 1 ∧ (∀ x ∈ g, 0 ≤ x) ∧ g.sum = 1) := by
  unfold sampleFromSimplex
  rw [if_neg, if_pos (by simpa using List.length_pos_iff.mpr hne)]
  · have hswo : swoOn (Fl.lessThanF (K := K)) (v.map Fl.fin) = true :=
      swoOn_of_key (fun a => a) (fun a _ b _ => by simp)
    refine (stdSort_sat hsrt hswo).bind ?_
    rintro s ⟨hp, hs⟩
    obtain ⟨w, rfl⟩ : ∃ w : List K, s = w.map Fl.fin := by
      have : ∀ x ∈ s, ∃ k : K, Fl.fin k = x := by
        intro x hx
        obtain ⟨k, _, hk⟩ := List.mem_map.mp (hp.mem_iff.mp hx)
        exact ⟨k, hk⟩
      clear hp hs
      induction s with
      | nil => exact ⟨[], rfl⟩
      | cons a s ih =>
        obtain ⟨w, rfl⟩ := ih (fun x hx => this x (by simp [hx]))
        obtain ⟨k, rfl⟩ := this a (by simp)
        exact ⟨k :: w, rfl⟩
    have hwl : w.length = v.length := by simpa using hp.length_eq
    have hw : ∀ x ∈ w, 0 ≤ x ∧ x ≤ 1 := by
      intro x hx
      have := hp.mem_iff.mp (List.mem_map_of_mem (f := Fl.fin) hx)
      obtain ⟨y, hy, hxy⟩ := List.mem_map.mp this
      cases hxy
      exact hv _ hy
    have hws : w.Pairwise (· ≤ ·) := by
      rw [List.pairwise_map] at hs
      refine hs.imp ?_
      intro a b h
      rw [← Bool.not_eq_true, Fl.lessThanF_iff, Fl.fin_lt_fin] at h
      exact not_lt.mp h
    have el : (Fl.fin 0 :: w.map Fl.fin) ++ [Fl.fin 1] = (((0 : K) :: w) ++ [1]).map Fl.fin := by simp
    have hls : (((0 : K) :: w) ++ [1]).Pairwise (· ≤ ·) := by
      rw [List.pairwise_append, List.pairwise_cons]
      refine ⟨⟨fun x hx => (hw x hx).1, hws⟩, by simp, ?_⟩
      intro x hx y hy
      rw [List.mem_singleton] at hy
      subst hy
      rcases List.mem_cons.mp hx with rfl | hx
      · exact zero_le_one
      · exact (hw x hx).2
    simp only []
    rw [el, List.length_map]
    have hl0 : 0 < (((0 : K) :: w) ++ [1]).length := by simp
    have hlast : ∀ h, (((0 : K) :: w) ++ [1])[(((0 : K) :: w) ++ [1]).length - 1]'h = 1 := by
      intro h
      rw [← List.getLast_eq_getElem (by simp)]; simp
    have hfirst : ∀ h, (((0 : K) :: w) ++ [1])[0]'h = 0 := fun _ => rfl
    have hll : (((0 : K) :: w) ++ [1]).length = v.length + 2 := by simp [hwl]
    generalize ((0 : K) :: w) ++ [1] = l at hls hl0 hlast hfirst hll
    refine (diff_loop l).bind ?_
    rintro r ⟨h1, h2⟩
    simp only [pure_eq, sat_ok]
    have hg : ∀ i (h : i + 1 < l.length), r.dropLast[i]? = some (Fl.fin (l[i + 1] - l[i])) := by
      intro i h
      rw [List.getElem?_dropLast, if_pos (by omega)]
      exact h2 i h
    refine ⟨List.ofFn (fun i : Fin (l.length - 1) => l[i.1 + 1] - l[i.1]), ?_, ?_, ?_, ?_⟩
    · apply List.ext_getElem?
      intro i
      by_cases hi : i + 1 < l.length
      · rw [hg i hi]
        simp only [List.getElem?_map]
        rw [List.getElem?_eq_getElem (by simp; omega)]
        simp
      · rw [List.getElem?_eq_none (by simp; omega), List.getElem?_eq_none (by simp; omega)]
    · simp; omega
    · intro x hx
      obtain ⟨i, rfl⟩ := List.mem_ofFn.mp hx
      have := List.pairwise_iff_getElem.mp hls i.1 (i.1 + 1) (by omega) (by omega) (by omega)
      exact sub_nonneg.mpr this
    · rw [telescope l _ hl0 (by simp; omega) (by intro i h1 h2; simp), hlast (by omega), hfirst (by omega), sub_zero]
  · simp only [List.any_map, List.any_eq_true, Function.comp_apply, Bool.or_eq_true, not_exists,
      not_and, not_or]
    intro x hx
    simp only [Fl.lt, Fl.gt, decide_eq_true_eq, not_lt]
    exact hv x hx

/-- C54: an entry below 0 or above 1, or an empty vector, makes the call throw. -/
theorem C54_throws (srt : (Fl K → Fl K → Bool) → List (Fl K) → List (Fl K)) (v : List (Fl K))
    (h : v = [] ∨ ∃ x ∈ v, x < .fin 0 ∨ (.fin 1 < x ∧ x ≠ .nan)) :
    sampleFromSimplex srt v = .throws .invalidArgument := by
  unfold sampleFromSimplex
  rcases h with rfl | ⟨x, hx, h⟩
  · simp
  · rw [if_pos]
    rw [List.any_eq_true]
    refine ⟨x, hx, ?_⟩
    rw [Bool.or_eq_true]
    rcases h with h | ⟨h, hn⟩
    · left
      have hn : x ≠ .nan := by rintro rfl; exact absurd h (Fl.not_nan_lt _)
      rw [Fl.lt_iff hn (by simp)]; exact h
    · right
      rw [Fl.gt, Fl.lt_iff (by simp) hn]; exact h

end c54

/-- C54 is false for NaN: it is not in `[0,1]` but accepted, and the output consists of NaNs. -/
theorem C54_nan_accepted :
    sampleFromSimplex insSort [Fl.nan (K := ℚ)] = .ok [.nan, .nan] := by decide +kernel

example : sampleFromSimplex insSort [Fl.fin (1/2 : ℚ), .fin (1/5)] =
    .ok [.fin (1/5), .fin (3/10), .fin (1/2)] := by decide +kernel

end Verif.Props
