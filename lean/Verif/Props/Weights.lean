import Verif.Proof.Weights
import Verif.Props.Discrepancy
import Mathlib.Algebra.BigOperators.Ring.List

/-!
# Properties C10 and C76: decomposition weights
-/

set_option autoImplicit false

namespace Verif.Props

open Verif Outcome Dec

section c10
variable {K : Type} [Field K] [LinearOrder K] [IsStrictOrderedRing K]

/-- a point of the standard simplex with `n` coordinates -/
def OnSimplex (n : Nat) (v : List (Fl K)) : Prop :=
  ∃ g : List K, v = g.map Fl.fin ∧ g.length = n ∧ (∀ x ∈ g, 0 ≤ x) ∧ g.sum = 1

/-- the canonical weight `[0, …, 1, …, 0]` with the one at position `i` -/
def canonical (n i : Nat) : List (Fl K) :=
  (List.range n).map (fun j => if j = i then .fin 1 else .fin 0)

omit [LinearOrder K] [IsStrictOrderedRing K] in
private theorem canonical_eq (n i : Nat) (hi : i < n) :
    (List.replicate n (Fl.fin (0 : K))).set i (.fin 1) = canonical n i := by
  apply List.ext_getElem?
  intro j
  rw [List.getElem?_set]
  simp only [List.length_replicate, canonical, List.getElem?_map]
  split
  · rename_i h
    subst h
    rw [List.getElem?_eq_getElem (by simpa using hi)]
    simp
  · rename_i h
    by_cases hj : j < n
    · rw [List.getElem?_eq_getElem (by simpa using hj), List.getElem?_eq_getElem (by simpa using hj)]
      simp; intro h'; omega
    · rw [List.getElem?_eq_none (by simp; omega), List.getElem?_eq_none (by simp; omega)]; rfl

omit [LinearOrder K] [IsStrictOrderedRing K] in
private theorem corners_eq (nf : Nat) :
    (corners nf : Outcome (List (List (Fl K)))) = .ok ((List.range nf).map (canonical nf)) := by
  have : (corners nf : Outcome (List (List (Fl K)))).Sat (fun r => r = (List.range nf).map (canonical nf)) := by
    refine range_sat (fun m r => r = (List.range m).map (canonical nf)) nf _ rfl ?_
    rintro m s hm rfl
    simp only []
    rw [get_of_lt (by simp), bind_ok]
    have e : ((List.range m).map (canonical (K := K) nf) ++ [List.replicate nf (.fin 0)])[m]'(by simp) =
        List.replicate nf (.fin 0) := by
      rw [List.getElem_append_right (by simp)]; simp
    rw [e, set_of_lt (by simpa using hm), bind_ok, canonical_eq nf m hm, set_of_lt (by simp), sat_ok,
      List.range_succ, List.map_append, List.set_append_right _ _ (by simp)]
    simp
  obtain ⟨r, h1, rfl⟩ := this
  exact h1

private theorem canonical_simplex (n i : Nat) (hi : i < n) : OnSimplex n (canonical (K := K) n i) := by
  refine ⟨(List.range n).map (fun j => if j = i then 1 else 0), ?_, by simp, ?_, ?_⟩
  · rw [canonical, List.map_map]
    apply List.map_congr_left
    intro j _
    simp only [Function.comp_apply]
    split <;> rfl
  · intro x hx
    obtain ⟨j, _, rfl⟩ := List.mem_map.mp hx
    split
    · exact zero_le_one
    · exact le_refl _
  · rw [sum_map_range, Finset.sum_ite_eq' , if_pos (by simpa using hi)]

/-! ### sanity checks -/

/-- C10: fewer than two objectives, fewer weights than objectives, or an unknown method: throws. -/
theorem C10_invalid_throws (srt : (Fl K → Fl K → Bool) → List (Fl K) → List (Fl K)) (u : Nat → K)
    (nf nw : Nat) (method : String)
    (h : nw < nf ∨ nf < 2 ∨ (method ≠ "grid" ∧ method ≠ "low discrepancy" ∧ method ≠ "random")) :
    decompositionWeights srt u nf nw method = .throws .invalidArgument := by
  unfold decompositionWeights
  by_cases h1 : nf > nw
  · rw [if_pos h1]
  · rw [if_neg h1]
    by_cases h2 : nf < 2
    · rw [if_pos h2]
    · rw [if_neg h2]
      rcases h with h | h | ⟨h3, h4, h5⟩
      · omega
      · omega
      · rw [if_neg h3, if_neg h4, if_neg h5]

/-! ### grid -/

private theorem choose_strict (H nf : Nat) (hnf : 2 ≤ nf) :
    (H + nf - 1).choose (nf - 1) < (H + 1 + nf - 1).choose (nf - 1) := by
  obtain ⟨k, rfl⟩ : ∃ k, nf = k + 2 := ⟨nf - 2, by omega⟩
  rw [show H + 1 + (k + 2) - 1 = (H + k + 1) + 1 by omega, show k + 2 - 1 = k + 1 by omega,
    show H + (k + 2) - 1 = H + k + 1 by omega, Nat.choose_succ_succ (H + k + 1) k]
  have : 0 < (H + k + 1).choose k := Nat.choose_pos (by omega)
  simp only [Nat.succ_eq_add_one]
  omega

private theorem gridH_correct (nf nw H : Nat) (hnf : 2 ≤ nf) (hle : nf ≤ nw)
    (h : nw = (H + nf - 1).choose (nf - 1)) : gridH nf nw = .ok H := by
  unfold gridH
  split
  · rename_i h2
    subst h2
    rw [show H + 2 - 1 = H + 1 by omega, show 2 - 1 = 1 by rfl, Nat.choose_one_right] at h
    rw [h]; rfl
  · split
    · rename_i h3
      subst h3
      rw [show H + 3 - 1 = H + 2 by omega, show 3 - 1 = 2 by rfl, Nat.choose_two_right,
        show H + 2 - 1 = H + 1 by omega] at h
      have he : (H + 2) * (H + 1) % 2 = 0 := by
        rw [Nat.mul_comm]; exact Nat.even_iff.mp (Nat.even_mul_succ_self (H + 1))
      have h8 : 8 * nw + 1 = (2 * H + 3) * (2 * H + 3) := by
        have : 2 * nw = (H + 2) * (H + 1) := by omega
        have e : (2 * H + 3) * (2 * H + 3) = 4 * ((H + 2) * (H + 1)) + 1 := by ring
        omega
      rw [h8, Nat.sqrt_eq, show (2 * H + 3 - 3) / 2 = H by omega]
    · have h4 : 4 ≤ nf := by omega
      obtain ⟨r, hr, h1, h2, h3⟩ := gridSearch_sat nf nw (nw + 1) 1 hnf le_rfl
        (by simp; omega) (by omega)
      rw [hr, bind_ok]
      congr 1
      have mono : StrictMono (fun H => (H + nf - 1).choose (nf - 1)) :=
        strictMono_nat_of_lt_succ (fun H => choose_strict H nf hnf)
      have l1 : H < r := by
        apply mono.lt_iff_lt.mp
        show (H + nf - 1).choose (nf - 1) < (r + nf - 1).choose (nf - 1)
        omega
      have l2 : r - 1 ≤ H := by
        apply mono.le_iff_le.mp
        show (r - 1 + nf - 1).choose (nf - 1) ≤ (H + nf - 1).choose (nf - 1)
        omega
      omega

private theorem gridH_ok (nf nw : Nat) (hnf : 2 ≤ nf) (hle : nf ≤ nw) : ∃ H, gridH nf nw = .ok H := by
  unfold gridH
  split
  · exact ⟨_, rfl⟩
  · split
    · exact ⟨_, rfl⟩
    · obtain ⟨r, hr, _⟩ := gridSearch_sat nf nw (nw + 1) 1 hnf le_rfl
        (by simp; omega) (by omega)
      exact ⟨r - 1, by rw [hr, bind_ok]⟩

/-- The number of equally spaced weights with `H` steps on the simplex in `nf` dimensions. -/
def gridSize (nf H : Nat) : Nat := (H + nf - 1).choose (nf - 1)

private theorem grid_eq (nf H : Nat) (hnf : 2 ≤ nf)
    (hle : nf ≤ gridSize nf H) (h64 : gridSize nf H < 2 ^ 64) :
    (gridWeights nf (gridSize nf H) : Outcome (List (List (Fl K)))) =
      .ok ((comps nf H).map (fun v => v.map (fun x : Nat => Fl.div (.fin (x : K)) (.fin (H : K))))) := by
  unfold gridWeights
  rw [gridH_correct nf _ H hnf hle rfl, bind_ok, if_neg (by simp [gridSize])]
  obtain ⟨m, rfl⟩ : ∃ m, nf = m + 2 := ⟨nf - 2, by omega⟩
  have hb := one_add_mul_le_choose H (m + 1)
  rw [show H + (m + 1) = H + (m + 2) - 1 by omega] at hb
  have hg : 1 + H * (m + 1) ≤ gridSize (m + 2) H := hb
  have h1 : (m + 1) * H < 2 ^ 64 := by rw [Nat.mul_comm]; omega
  rw [reksum_comps H (m + 1) H [] le_rfl h1 (Or.inr rfl) (by
    have : H ≤ (m + 1) * H := Nat.le_mul_of_pos_left _ (by omega)
    omega)]
  simp

private theorem gridH_pos (nf H : Nat) (hnf : 2 ≤ nf) (hle : nf ≤ gridSize nf H) : 0 < H := by
  rcases Nat.eq_zero_or_pos H with rfl | h
  · simp [gridSize, show 0 + nf - 1 = nf - 1 by omega] at hle; omega
  · exact h

private theorem grid_vec (nf H : Nat) (hH : 0 < H) (v : List Nat) :
    v.map (fun x : Nat => Fl.div (.fin (x : K)) (.fin (H : K))) =
      (v.map (fun x : Nat => (x : K) / (H : K))).map Fl.fin := by
  have hH' : (H : K) ≠ 0 := by
    have : (0 : K) < H := by exact_mod_cast hH
    exact this.ne'
  rw [List.map_map]
  apply List.map_congr_left
  intro x _
  simp [Fl.div, hH']

private theorem sum_div_list (H : K) (v : List Nat) :
    (v.map (fun x : Nat => (x : K) / H)).sum = ((v.sum : Nat) : K) / H := by
  induction v with
  | nil => simp
  | cons a v ih => simp [ih, add_div]

/-- C10, grid: if `nw` is the size of a regular grid on the simplex then exactly `nw` pairwise different points
of the simplex are returned. (`nw` is a 64 bit number.) -/
theorem C10_grid (srt : (Fl K → Fl K → Bool) → List (Fl K) → List (Fl K)) (u : Nat → K)
    (nf nw : Nat) (hnf : 2 ≤ nf) (hle : nf ≤ nw) (h64 : nw < 2 ^ 64) :
    ((∃ H, nw = gridSize nf H) →
      (decompositionWeights srt u nf nw "grid").Sat (fun r =>
        r.length = nw ∧ (∀ v ∈ r, OnSimplex nf v) ∧ r.Nodup)) ∧
    ((¬ ∃ H, nw = gridSize nf H) →
      decompositionWeights srt u nf nw "grid" = .throws .invalidArgument) := by
  have e : decompositionWeights srt u nf nw "grid" = gridWeights nf nw := by
    unfold decompositionWeights
    rw [if_neg (by omega), if_neg (by omega), if_pos rfl]
  rw [e]
  constructor
  · rintro ⟨H, rfl⟩
    have hH := gridH_pos nf H hnf hle
    have hH' : (H : K) ≠ 0 := by
      have : (0 : K) < H := by exact_mod_cast hH
      exact this.ne'
    rw [grid_eq nf H hnf hle h64, sat_ok]
    obtain ⟨m, rfl⟩ : ∃ m, nf = m + 1 := ⟨nf - 1, by omega⟩
    refine ⟨?_, ?_, ?_⟩
    · rw [List.length_map, length_comps]
      rfl
    · intro w hw
      obtain ⟨v, hv, rfl⟩ := List.mem_map.mp hw
      rw [mem_comps] at hv
      refine ⟨_, grid_vec (m + 1) H hH v, by simp [hv.1], ?_, ?_⟩
      · intro x hx
        obtain ⟨y, _, rfl⟩ := List.mem_map.mp hx
        positivity
      · rw [sum_div_list, hv.2, div_self hH']
    · refine (nodup_comps m H).map ?_
      intro v w hvw
      dsimp only at hvw
      rw [grid_vec (m + 1) H hH, grid_vec (m + 1) H hH] at hvw
      have h1 := (List.map_injective_iff.mpr (fun a b h => by simpa using h)) hvw
      refine (List.map_injective_iff.mpr ?_) h1
      intro a b hab
      dsimp only at hab
      rw [div_left_inj' hH'] at hab
      exact_mod_cast hab
  · intro hno
    obtain ⟨H, hH⟩ := gridH_ok nf nw hnf hle
    unfold gridWeights
    rw [hH, bind_ok, if_pos]
    intro h
    exact hno ⟨H, h⟩

/-- C10, grid: the points are exactly those whose coordinates are multiples of `1/H`. -/
theorem C10_grid_complete (srt : (Fl K → Fl K → Bool) → List (Fl K) → List (Fl K)) (u : Nat → K)
    (nf H : Nat) (hnf : 2 ≤ nf) (hle : nf ≤ gridSize nf H) (h64 : gridSize nf H < 2 ^ 64) :
    (decompositionWeights srt u nf (gridSize nf H) "grid").Sat (fun r =>
      ∀ v : List Nat, v.length = nf → v.sum = H →
        v.map (fun x : Nat => Fl.fin ((x : K) / (H : K))) ∈ r) := by
  have e : decompositionWeights srt u nf (gridSize nf H) "grid" = gridWeights nf (gridSize nf H) := by
    unfold decompositionWeights
    rw [if_neg (by omega), if_neg (by omega), if_pos rfl]
  rw [e, grid_eq nf H hnf hle h64, sat_ok]
  intro v h1 h2
  rw [List.mem_map]
  refine ⟨v, ?_, ?_⟩
  · obtain ⟨m, rfl⟩ : ∃ m, nf = m + 1 := ⟨nf - 1, by omega⟩
    exact (mem_comps m H v).mpr ⟨h1, h2⟩
  · rw [grid_vec nf H (gridH_pos nf H hnf hle), List.map_map]
    rfl

/-- The closed formula used for three objectives: `⌊0.5 (√(8 n + 1) - 3)⌋` over the reals is what the model
computes with integers. -/
theorem C10_grid_H_formula (n : Nat) (hn : 1 ≤ n) :
    ⌊(0.5 : ℝ) * (Real.sqrt (8 * n + 1) - 3)⌋ = (((Nat.sqrt (8 * n + 1) - 3) / 2 : Nat) : ℤ) := by
  have h3 : 3 ≤ Nat.sqrt (8 * n + 1) := by
    rw [Nat.le_sqrt]; omega
  set s := Nat.sqrt (8 * n + 1) with hs
  have hle : s * s ≤ 8 * n + 1 := Nat.sqrt_le _
  have hlt : 8 * n + 1 < (s + 1) * (s + 1) := Nat.lt_succ_sqrt _
  have hle' : (s : ℝ) ≤ Real.sqrt (8 * n + 1) := by
    apply Real.le_sqrt_of_sq_le
    have : ((s * s : Nat) : ℝ) ≤ ((8 * n + 1 : Nat) : ℝ) := by exact_mod_cast hle
    push_cast at this
    nlinarith
  have hlt' : Real.sqrt (8 * n + 1) < (s : ℝ) + 1 := by
    rw [Real.sqrt_lt' (by positivity)]
    have : ((8 * n + 1 : Nat) : ℝ) < (((s + 1) * (s + 1) : Nat) : ℝ) := by exact_mod_cast hlt
    push_cast at this
    nlinarith
  rw [Int.floor_eq_iff]
  obtain ⟨k, hk⟩ : ∃ k, s - 3 = 2 * k ∨ s - 3 = 2 * k + 1 := ⟨(s - 3) / 2, by omega⟩
  have hkk : (s - 3) / 2 = k := by omega
  have hsk : (s : ℝ) = 2 * k + 3 ∨ (s : ℝ) = 2 * k + 4 := by
    rcases hk with hk | hk
    · left; have : s = 2 * k + 3 := by omega
      exact_mod_cast this
    · right; have : s = 2 * k + 4 := by omega
      exact_mod_cast this
  rw [hkk]
  push_cast
  constructor
  · rcases hsk with h | h <;> linarith
  · rcases hsk with h | h <;> linarith

/-! ### low discrepancy and random -/

/-- The result of the two methods that push the canonical weights first. -/
def CornersThenSimplex (nf nw : Nat) (r : List (List (Fl K))) : Prop :=
  r.length = nw ∧ (∀ v ∈ r, OnSimplex nf v) ∧ ∀ i, i < nf → r[i]? = some (canonical nf i)

private theorem corners_append (nf nw : Nat) (hle : nf ≤ nw) (t : List (List (Fl K))) (ht : t.length = nw - nf)
    (hs : ∀ v ∈ t, OnSimplex nf v) :
    CornersThenSimplex nf nw ((List.range nf).map (canonical nf) ++ t) := by
  refine ⟨by simp [ht]; omega, ?_, ?_⟩
  · intro v hv
    rcases List.mem_append.mp hv with h | h
    · obtain ⟨i, hi, rfl⟩ := List.mem_map.mp h
      exact canonical_simplex nf i (List.mem_range.mp hi)
    · exact hs v h
  · intro i hi
    rw [List.getElem?_append_left (by simpa using hi), List.getElem?_map,
      List.getElem?_eq_getElem (by simpa using hi)]
    simp

/-- C10, random: whatever numbers in `[0,1]` the engine delivers. -/
theorem C10_random (srt : (Fl K → Fl K → Bool) → List (Fl K) → List (Fl K)) (hsrt : ValidSort srt)
    (u : Nat → K) (hu : ∀ i, 0 ≤ u i ∧ u i ≤ 1) (nf nw : Nat) (hnf : 2 ≤ nf) (hle : nf ≤ nw) :
    (decompositionWeights srt u nf nw "random").Sat (CornersThenSimplex nf nw) := by
  unfold decompositionWeights
  rw [if_neg (by omega), if_neg (by omega), if_neg (by decide), if_neg (by decide), if_pos rfl]
  unfold randomWeights
  rw [corners_eq, bind_ok]
  refine (range_sat (fun m (r : List (List (Fl K))) => ∃ t : List (List (Fl K)),
    r = (List.range nf).map (canonical nf) ++ t ∧ t.length = m ∧ ∀ v ∈ t, OnSimplex nf v) _ _
    ⟨[], by simp, rfl, by simp⟩ ?_).mono ?_
  · rintro m s hm ⟨t, rfl, ht, hs⟩
    have e : (List.range (nf - 1)).map (fun j => Fl.fin (u (m * (nf - 1) + j))) =
        ((List.range (nf - 1)).map (fun j => u (m * (nf - 1) + j))).map Fl.fin := by
      rw [List.map_map]; rfl
    rw [e]
    refine (C54_simplex_partial srt hsrt _ ?_ ?_).bind ?_
    · intro h
      have := congrArg List.length h
      simp at this; omega
    · intro x hx
      obtain ⟨j, _, rfl⟩ := List.mem_map.mp hx
      exact ⟨(hu _).1, (hu _).2⟩
    · rintro x ⟨g, rfl, h1, h2, h3⟩
      rw [sat_ok]
      refine ⟨t ++ [g.map Fl.fin], by simp, by simp [ht], ?_⟩
      intro v hv
      rcases List.mem_append.mp hv with h | h
      · exact hs v h
      · rw [List.mem_singleton] at h
        subst h
        refine ⟨g, rfl, ?_, h2, h3⟩
        rw [h1]; simp; omega
  · rintro r ⟨t, rfl, ht, hs⟩
    exact corners_append nf nw hle t ht hs

private theorem haltonNext_range (h : List Disc.Vdc) (hb : ∀ v ∈ h, 2 ≤ v.base) :
    (Disc.haltonNext h : Outcome (List K × List Disc.Vdc)).Sat (fun r => r.1.length = h.length ∧
      (∀ x ∈ r.1, 0 ≤ x ∧ x < 1) ∧ r.2.length = h.length ∧ ∀ v ∈ r.2, 2 ≤ v.base) := by
  have hv : ∀ v ∈ h, (v.next : Outcome (K × Disc.Vdc)) =
      .ok (radicalInverse K v.base v.counter, ⟨v.base, (v.counter + 1) % 2 ^ 32⟩) :=
    fun v hv => C52_vdc_next v.base v.counter (hb v hv)
  unfold Disc.haltonNext
  rw [mapM_ok (fun v => (radicalInverse K v.base v.counter,
        (⟨v.base, (v.counter + 1) % 2 ^ 32⟩ : Disc.Vdc))) h hv]
  simp only [bind_ok, pure_eq, sat_ok, List.length_map, List.map_map]
  refine ⟨trivial, ?_, trivial, ?_⟩
  · intro x hx
    obtain ⟨v, hv, rfl⟩ := List.mem_map.mp hx
    exact C52_radical_inverse_bounds _ _ (hb v hv)
  · intro x hx
    obtain ⟨v, hv, rfl⟩ := List.mem_map.mp hx
    exact hb v hv

/-- C10, low discrepancy: works up to 1601 objectives, throws above. -/
theorem C10_low_discrepancy (srt : (Fl K → Fl K → Bool) → List (Fl K) → List (Fl K)) (hsrt : ValidSort srt)
    (u : Nat → K) (nf nw : Nat) (hnf : 2 ≤ nf) (hle : nf ≤ nw) :
    (nf ≤ 1601 → (decompositionWeights srt u nf nw "low discrepancy").Sat (CornersThenSimplex nf nw)) ∧
    (1601 < nf → ∃ e, decompositionWeights srt u nf nw "low discrepancy" = .throws e) := by
  have e : decompositionWeights srt u nf nw "low discrepancy" = lowDiscrepancyWeights srt nf nw := by
    unfold decompositionWeights
    rw [if_neg (by omega), if_neg (by omega), if_neg (by decide), if_pos rfl]
  rw [e]
  unfold lowDiscrepancyWeights
  rw [corners_eq, bind_ok]
  constructor
  · intro hd
    rw [if_neg (by omega), if_neg (by omega)]
    obtain ⟨h, _, hmk, _⟩ := (C52_halton (K := K) (nf - 1) nf 0).1 (by omega) (by omega)
    have hh : h.length = nf - 1 ∧ ∀ v ∈ h, 2 ≤ v.base := C52_halton_state _ _ _ hmk
    rw [hmk, bind_ok]
    refine (range_sat (fun m (r : List (List (Fl K)) × List Disc.Vdc) =>
      (r.2.length = nf - 1 ∧ ∀ v ∈ r.2, 2 ≤ v.base) ∧ ∃ t : List (List (Fl K)),
      r.1 = (List.range nf).map (canonical nf) ++ t ∧ t.length = m ∧ ∀ v ∈ t, OnSimplex nf v) _ _
      ⟨hh, [], by simp, rfl, by simp⟩ ?_).bind ?_
    · rintro m ⟨s1, s2⟩ hm ⟨⟨h1, h2⟩, t, rfl, ht, hs⟩
      refine (haltonNext_range s2 h2).bind ?_
      rintro ⟨p, h'⟩ ⟨p1, p2, p3, p4⟩
      dsimp only at p1 p2 p3 p4 h1 h2 ⊢
      refine (C54_simplex_partial srt hsrt p ?_ ?_).bind ?_
      · rintro rfl
        rw [List.length_nil] at p1
        omega
      · intro x hx
        exact ⟨(p2 x hx).1, (p2 x hx).2.le⟩
      · rintro x ⟨g, rfl, h1', h2', h3⟩
        rw [sat_ok]
        refine ⟨⟨by rw [p3, h1], p4⟩, t ++ [g.map Fl.fin], by simp, by simp [ht], ?_⟩
        intro v hv
        rcases List.mem_append.mp hv with h | h
        · exact hs v h
        · rw [List.mem_singleton] at h
          subst h
          exact ⟨g, rfl, by rw [h1', p1, h1]; omega, h2', h3⟩
    · rintro ⟨r1, r2⟩ ⟨_, t, rfl, ht, hs⟩
      rw [sat_ok]
      exact corners_append nf nw hle t ht hs
  · intro hd
    split
    · exact ⟨_, rfl⟩
    · split
      · exact ⟨_, rfl⟩
      · rw [(C52_halton (K := K) (nf - 1) nf 0).2 (by omega)]
        exact ⟨_, rfl⟩

end c10

example : decompositionWeights insSort (fun _ => (1/2 : ℚ)) 3 6 "grid" = .ok
    [[.fin 0, .fin 0, .fin 1], [.fin 0, .fin (1/2), .fin (1/2)], [.fin 0, .fin 1, .fin 0],
     [.fin (1/2), .fin 0, .fin (1/2)], [.fin (1/2), .fin (1/2), .fin 0], [.fin 1, .fin 0, .fin 0]] := by
  decide +kernel
example : gridSize 3 2 = 6 ∧ gridSize 5 4 = 70 := by decide
example : decompositionWeights insSort (fun i => (i : ℚ) / 10) 3 4 "random" = .ok
    [[.fin 1, .fin 0, .fin 0], [.fin 0, .fin 1, .fin 0], [.fin 0, .fin 0, .fin 1],
     [.fin 0, .fin (1/10), .fin (9/10)]] := by decide +kernel

/-! ## C76 -/

/-- C76 is false of "grid": the first weight is `[0, 1]`, not `[1, 0]`. -/
theorem C76_grid_not_canonical_first :
    decompositionWeights insSort (fun _ => (0 : ℚ)) 2 3 "grid" =
      .ok [[.fin 0, .fin 1], [.fin (1/2), .fin (1/2)], [.fin 1, .fin 0]] := by decide +kernel

section c76
variable {K : Type} [Field K] [LinearOrder K] [IsStrictOrderedRing K]

/-- C76 (partial): "random" and "low discrepancy" deliver the canonical weights first, in order; "grid" delivers
them somewhere. Missing: "grid" does not deliver them first, see `C76_grid_not_canonical_first`. -/
theorem C76_canonical_first_partial (srt : (Fl K → Fl K → Bool) → List (Fl K) → List (Fl K))
    (hsrt : ValidSort srt) (u : Nat → K) (hu : ∀ i, 0 ≤ u i ∧ u i ≤ 1) (nf nw : Nat) (hnf : 2 ≤ nf)
    (hle : nf ≤ nw) (h64 : nw < 2 ^ 64) (method : String) (r : List (List (Fl K)))
    (hr : decompositionWeights srt u nf nw method = .ok r) :
    (method ≠ "grid" → ∀ i, i < nf → r[i]? = some (canonical nf i)) ∧
    (method = "grid" → ∀ i, i < nf → canonical nf i ∈ r) := by
  constructor
  · intro hm i hi
    by_cases h1 : method = "random"
    · subst h1
      obtain ⟨r', h1, h2⟩ := C10_random srt hsrt u hu nf nw hnf hle
      rw [hr] at h1; cases h1
      exact h2.2.2 i hi
    · by_cases h2 : method = "low discrepancy"
      · subst h2
        by_cases hd : nf ≤ 1601
        · obtain ⟨r', h1, h2⟩ := (C10_low_discrepancy srt hsrt u nf nw hnf hle).1 hd
          rw [hr] at h1; cases h1
          exact h2.2.2 i hi
        · obtain ⟨e, he⟩ := (C10_low_discrepancy srt hsrt u nf nw hnf hle).2 (by omega)
          rw [hr] at he; exact absurd he (by simp)
      · rw [C10_invalid_throws srt u nf nw method (Or.inr (Or.inr ⟨hm, h2, h1⟩))] at hr
        exact absurd hr (by simp)
  · rintro rfl i hi
    by_cases hH : ∃ H, nw = gridSize nf H
    · obtain ⟨H, rfl⟩ := hH
      obtain ⟨r', h1, h2⟩ := C10_grid_complete srt u nf H hnf hle h64
      rw [hr] at h1; cases h1
      have hHpos := gridH_pos nf H hnf hle
      have hH' : (H : K) ≠ 0 := by
        have : (0 : K) < H := by exact_mod_cast hHpos
        exact this.ne'
      have := h2 ((List.range nf).map (fun j => if j = i then H else 0)) (by simp) (by
        rw [sum_map_range, Finset.sum_ite_eq', if_pos (by simpa using hi)])
      rw [List.map_map] at this
      have e : (List.range nf).map ((fun x : Nat => Fl.fin ((x : K) / (H : K))) ∘
          (fun j => if j = i then H else 0)) = canonical nf i := by
        rw [canonical]
        apply List.map_congr_left
        intro j _
        simp only [Function.comp_apply]
        split
        · simp [hH']
        · simp
      rw [e] at this
      exact this
    · rw [(C10_grid srt u nf nw hnf hle h64).2 hH] at hr
      exact absurd hr (by simp)

end c76

end Verif.Props
