import Verif.Model.Dtlz
import Verif.Proof.Analytic
import Mathlib.Algebra.Order.BigOperators.Ring.Finset
import Mathlib.Tactic.Positivity
import Mathlib.Tactic.LinearCombination

/-!
# Closed forms of the DTLZ problems
-/

set_option autoImplicit false

namespace Verif.Dtlz

open Verif Verif.Analytic Finset

theorem mulLoop_ok {n : Nat} {f : Nat → Outcome ℝ} {g : Nat → ℝ} (h : ∀ i, i < n → f i = .ok (g i)) (k : ℝ) :
    mulLoop n f k = .ok (k * ∏ i ∈ range n, g i) := by
  induction n with
  | zero => simp [mulLoop]
  | succ n ih =>
    have := ih (fun i hi => h i (by omega))
    unfold mulLoop at this ⊢
    rw [List.range_succ, List.foldlM_append, this]
    simp only [Outcome.bind_ok, List.foldlM_cons, List.foldlM_nil, h n (by omega), Outcome.pure_eq, prod_range_succ, mul_assoc]

/-- the part of objective `i` which depends on the position on the front -/
def wt (m : Nat) (C S : Nat → ℝ) (i : Nat) : ℝ :=
  if i = 0 then ∏ j ∈ range (m - 1), C j else (∏ j ∈ range (m - (i + 1)), C j) * S (m - (i + 1))

theorem shape_ok {m : Nat} (hm : 2 ≤ m) (k : ℝ) {c s : Nat → Outcome ℝ} {C S : Nat → ℝ} (hc : ∀ j, j < m - 1 → c j = .ok (C j))
    (hs : ∀ j, j < m - 1 → s j = .ok (S j)) :
    shape m k c s = .ok ((List.range m).map (fun i => k * wt m C S i)) := by
  obtain ⟨w, hw, hwl, hwi⟩ := fillLoop_ok (a := 1) (n := m - 1 - 1) (f := shapeMid m k c s)
    (g := fun i => k * (∏ j ∈ range (m - (i + 1)), C j) * S (m - (i + 1)))
    (fun i h1 h2 => by
      rw [shapeMid, mulLoop_ok (g := C) (fun j hj => hc j (by omega)), hs _ (by omega)]; rfl)
    ((List.replicate m (0 : ℝ)).set 0 (k * ∏ j ∈ range (m - 1), C j)) (by simp; omega)
  have hwl' : w.length = m := by simpa using hwl
  unfold shape
  rw [mulLoop_ok (g := C) hc, Outcome.bind_ok, Outcome.set_of_lt (by simp; omega), Outcome.bind_ok, hw, Outcome.bind_ok,
    hs 0 (by omega), Outcome.bind_ok, Outcome.set_of_lt (by omega)]
  congr 1
  refine List.ext_getElem? (fun i => ?_)
  rw [List.getElem?_set, hwi, List.getElem?_set, List.getElem?_map]
  by_cases h1 : i < m
  · rw [List.getElem?_range h1, Option.map_some]
    by_cases h2 : m - 1 = i
    · rw [if_pos h2, if_pos (by omega), wt, if_neg (by omega), show m - (i + 1) = 0 by omega]; simp
    · rw [if_neg h2]
      by_cases h3 : 1 ≤ i
      · rw [if_pos (by omega), wt, if_neg (by omega), mul_assoc]
      · rw [if_neg (by omega), if_pos (by omega), if_pos (by simp; omega), wt, if_pos (by omega)]
  · rw [if_neg (by omega), if_neg (by omega), if_neg (by omega), List.getElem?_eq_none (by simp; omega),
      List.getElem?_eq_none (by simp; omega)]; rfl

theorem telescope (C S : Nat → ℝ) (n : Nat) (h : ∀ j, j < n → C j + S j = 1) :
    (∏ j ∈ range n, C j) + ∑ i ∈ range n, (∏ j ∈ range i, C j) * S i = 1 := by
  induction n with
  | zero => simp
  | succ n ih =>
    have h1 := ih (fun j hj => h j (by omega))
    have h2 := h n (by omega)
    rw [prod_range_succ, sum_range_succ]
    linear_combination h1 + (∏ j ∈ range n, C j) * h2

theorem sum_wt {m : Nat} (hm : 2 ≤ m) {C S : Nat → ℝ} (h : ∀ j, j < m - 1 → C j + S j = 1) : ∑ i ∈ range m, wt m C S i = 1 := by
  obtain ⟨n, rfl⟩ : ∃ n, m = n + 1 := ⟨m - 1, by omega⟩
  rw [sum_range_succ']
  have e : ∀ i ∈ range n, wt (n + 1) C S (i + 1) = (fun i => (∏ j ∈ range i, C j) * S i) (n - 1 - i) := by
    intro i _
    rw [wt, if_neg (by omega), show n + 1 - (i + 1 + 1) = n - 1 - i by omega]
  rw [sum_congr rfl e, sum_range_reflect (fun i => (∏ j ∈ range i, C j) * S i) n, add_comm, wt, if_pos rfl]
  exact telescope C S n h

theorem wt_sq (m : Nat) (C S : Nat → ℝ) (i : Nat) : wt m C S i ^ 2 = wt m (fun j => C j ^ 2) (fun j => S j ^ 2) i := by
  unfold wt
  split
  · rw [prod_pow]
  · rw [mul_pow, prod_pow]

theorem wt_nonneg {m : Nat} (hm : 2 ≤ m) {C S : Nat → ℝ} (hC : ∀ j, j < m - 1 → 0 ≤ C j) (hS : ∀ j, j < m - 1 → 0 ≤ S j) {i : Nat}
    (hi : i < m) : 0 ≤ wt m C S i := by
  unfold wt
  split
  · exact prod_nonneg (fun j hj => hC j (mem_range.mp hj))
  · exact mul_nonneg (prod_nonneg (fun j hj => hC j (by have := mem_range.mp hj; omega))) (hS _ (by omega))

theorem sum_map_range (f : Nat → ℝ) (n : Nat) : ((List.range n).map f).sum = ∑ i ∈ range n, f i := by
  induction n with
  | zero => simp
  | succ n ih => rw [List.range_succ, List.map_append, List.sum_append, ih, sum_range_succ]; simp

theorem get_drop {x : List ℝ} {i : Nat} (h : i < x.length) : Outcome.get x i = .ok (at0 x i) := get_at0 h

/-- all elements in [0, 1] -/
def Unit01 (x : List ℝ) : Prop := ∀ a ∈ x, 0 ≤ a ∧ a ≤ 1

theorem Unit01.at0 {x : List ℝ} (h : Unit01 x) {i : Nat} (hi : i < x.length) : 0 ≤ at0 x i ∧ at0 x i ≤ 1 :=
  h _ (List.mem_of_getElem? (some_at0 hi))

/-- the optimal value of the variables of the distance function -/
noncomputable def opt (p : Dtlz) : ℝ := if p.id = 6 ∨ p.id = 7 then 0 else 0.5

/-- the value of the distance function -/
noncomputable def gVal (p : Dtlz) (x : List ℝ) : ℝ :=
  match p.id with
  | 6 => ∑ i ∈ range x.length, at0 x i ^ (0.1 : ℝ)
  | 7 => 9 / (x.length : ℝ) * ∑ i ∈ range x.length, at0 x i
  | 1 => 100 * ((∑ i ∈ range x.length, ((at0 x i - 0.5) ^ 2 - Real.cos (20 * Real.pi * (at0 x i - 0.5)))) + (x.length : ℝ))
  | 3 => 100 * ((∑ i ∈ range x.length, ((at0 x i - 0.5) ^ 2 - Real.cos (20 * Real.pi * (at0 x i - 0.5)))) + (x.length : ℝ))
  | 2 => ∑ i ∈ range x.length, (at0 x i - 0.5) ^ 2
  | 4 => ∑ i ∈ range x.length, (at0 x i - 0.5) ^ 2
  | 5 => ∑ i ∈ range x.length, (at0 x i - 0.5) ^ 2
  | _ => 0

theorem g13_ok (x : List ℝ) : g13 x =
    .ok (100 * ((∑ i ∈ range x.length, ((at0 x i - 0.5) ^ 2 - Real.cos (20 * Real.pi * (at0 x i - 0.5)))) + (x.length : ℝ))) := by
  unfold g13
  rw [sumLoop_ok (g := fun i => (at0 x i - 0.5) ^ 2 - Real.cos (20 * Real.pi * (at0 x i - 0.5)))]
  · simp
  · intro i hi; rw [g13Term, get_at0 hi]; rfl

theorem g245_ok (x : List ℝ) : g245 x = .ok (∑ i ∈ range x.length, (at0 x i - 0.5) ^ 2) := by
  unfold g245
  rw [sumLoop_ok (g := fun i => (at0 x i - 0.5) ^ 2)]
  · simp
  · intro i hi; rw [g245Term, get_at0 hi]; rfl

theorem g6_ok (x : List ℝ) : g6 x = .ok (∑ i ∈ range x.length, at0 x i ^ (0.1 : ℝ)) := by
  unfold g6
  rw [sumLoop_ok (g := fun i => at0 x i ^ (0.1 : ℝ))]
  · simp
  · intro i hi; rw [g6Term, get_at0 hi]; rfl

theorem g7_ok (x : List ℝ) : g7 x = .ok (9 / (x.length : ℝ) * ∑ i ∈ range x.length, at0 x i) := by
  unfold g7
  rw [sumLoop_ok (g := fun i => at0 x i)]
  · simp
  · intro i hi; rw [get_at0 hi]

theorem gFunc_ok (p : Dtlz) (x : List ℝ) : gFunc p x = .ok (gVal p x) := by
  unfold gFunc gVal
  split <;> rename_i hid <;> simp only [hid]
  · exact g6_ok x
  · exact g7_ok x
  · exact g13_ok x
  · exact g13_ok x
  · exact g245_ok x
  · exact g245_ok x
  · exact g245_ok x

theorem g13_split (x : List ℝ) : (∑ i ∈ range x.length, ((at0 x i - 0.5) ^ 2 - Real.cos (20 * Real.pi * (at0 x i - 0.5)))) + (x.length : ℝ) =
    ∑ i ∈ range x.length, ((at0 x i - 0.5) ^ 2 + (1 - Real.cos (20 * Real.pi * (at0 x i - 0.5)))) := by
  have : (x.length : ℝ) = ∑ i ∈ range x.length, (1 : ℝ) := by simp
  conv_lhs => rw [this]
  rw [← sum_add_distrib]
  exact sum_congr rfl (fun i _ => by ring)

theorem gVal_nonneg (p : Dtlz) {x : List ℝ} (h : Unit01 x) : 0 ≤ gVal p x := by
  have h1 : 0 ≤ 100 * ((∑ i ∈ range x.length, ((at0 x i - 0.5) ^ 2 - Real.cos (20 * Real.pi * (at0 x i - 0.5)))) + (x.length : ℝ)) := by
    rw [g13_split]
    refine mul_nonneg (by norm_num) (sum_nonneg (fun i _ => ?_))
    have := Real.cos_le_one (20 * Real.pi * (at0 x i - 0.5))
    have := sq_nonneg (at0 x i - 0.5)
    linarith
  unfold gVal
  split
  · exact sum_nonneg (fun i hi => Real.rpow_nonneg (h.at0 (mem_range.mp hi)).1 _)
  · exact mul_nonneg (by positivity) (sum_nonneg (fun i hi => (h.at0 (mem_range.mp hi)).1))
  · exact h1
  · exact h1
  · exact sum_nonneg (fun i _ => sq_nonneg _)
  · exact sum_nonneg (fun i _ => sq_nonneg _)
  · exact sum_nonneg (fun i _ => sq_nonneg _)
  · exact le_rfl

theorem at0_rep {n i : Nat} (h : i < n) (a : ℝ) : at0 (List.replicate n a) i = a := at0_some (by simp [h])

theorem gVal_opt (p : Dtlz) (n : Nat) : gVal p (List.replicate n (opt p)) = 0 := by
  unfold gVal
  split <;> rename_i hid <;> simp only [opt, hid, List.length_replicate]
  · refine sum_eq_zero (fun i hi => ?_)
    rw [at0_rep (mem_range.mp hi)]
    simp only [true_or, if_true]
    exact Real.zero_rpow (by norm_num)
  · rw [sum_eq_zero (fun i hi => ?_), mul_zero]
    rw [at0_rep (mem_range.mp hi)]; simp
  all_goals
    first
    | exact sum_eq_zero (fun i hi => by rw [at0_rep (mem_range.mp hi)]; simp)
    | (rw [sum_congr rfl (g := fun _ => (-1 : ℝ)) (fun i hi => by rw [at0_rep (mem_range.mp hi)]; simp)]; simp; done)

/-! ## The objectives -/

/-- the meta variable `j` -/
noncomputable def thetaVal (x : List ℝ) (g : ℝ) (j : Nat) : ℝ := if j = 0 then at0 x 0 else 1 / (2 * (1 + g)) + g * at0 x j / (1 + g)

/-- the argument of sine and cosine, divided by `pi / 2` -/
noncomputable def ang (p : Dtlz) (x : List ℝ) (g : ℝ) (j : Nat) : ℝ :=
  if p.id ≤ 3 then at0 x j else if p.id = 4 then at0 x j ^ p.alpha else thetaVal x g j

/-- the first kind of factors -/
noncomputable def cc (p : Dtlz) (x : List ℝ) (g : ℝ) (j : Nat) : ℝ :=
  if p.id = 1 then at0 x j else Real.cos (ang p x g j * (Real.pi / 2))

/-- the second kind of factors -/
noncomputable def ss (p : Dtlz) (x : List ℝ) (g : ℝ) (j : Nat) : ℝ :=
  if p.id = 1 then 1 - at0 x j else Real.sin (ang p x g j * (Real.pi / 2))

/-- the factor in front -/
noncomputable def kk (p : Dtlz) (g : ℝ) : ℝ := if p.id = 1 then 0.5 * (1 + g) else 1 + g

theorem theta_ok {m : Nat} (hm : 2 ≤ m) {x : List ℝ} (hx : m ≤ x.length) (g : ℝ) :
    ∃ t, theta m x g = .ok t ∧ t.length = m ∧ ∀ j, j < m → at0 t j = thetaVal x g j := by
  obtain ⟨w, hw, hwl, hwi⟩ := fillLoop_ok (a := 1) (n := m - 1) (f := thetaAt x g)
    (g := fun j => 1 / (2 * (1 + g)) + g * at0 x j / (1 + g))
    (fun i h1 h2 => by rw [thetaAt, get_at0 (by omega)]; rfl) ((List.replicate m (0 : ℝ)).set 0 (at0 x 0)) (by simp; omega)
  refine ⟨w, ?_, by simpa using hwl, ?_⟩
  · unfold theta
    rw [get_at0 (by omega), Outcome.bind_ok, Outcome.set_of_lt (by simp; omega), Outcome.bind_ok, hw]
  · intro j hj
    have h := hwi j
    by_cases h1 : 1 ≤ j
    · rw [if_pos (by omega)] at h
      rw [at0_some h, thetaVal, if_neg (by omega)]
    · obtain rfl : j = 0 := by omega
      rw [if_neg (by omega), List.getElem?_set, if_pos rfl, if_pos (by simp; omega)] at h
      rw [at0_some h, thetaVal, if_pos rfl]

theorem fitness_ok (p : Dtlz) (h1 : 1 ≤ p.id) (h6 : p.id ≤ 6) (hm : 2 ≤ p.fdim) {x : List ℝ} (hx : p.fdim ≤ x.length) (g : ℝ)
    (hg : gVal p (x.drop (p.fdim - 1)) = g) :
    fitness p x = .ok ((List.range p.fdim).map (fun i => kk p g * wt p.fdim (cc p x g) (ss p x g) i)) := by
  have hG : gFunc p (x.drop (p.fdim - 1)) = .ok g := by rw [gFunc_ok, hg]
  have h123 : p.id = 2 ∨ p.id = 3 → f23 p x = .ok ((List.range p.fdim).map (fun i => kk p g * wt p.fdim (cc p x g) (ss p x g) i)) := by
    intro h
    have hk : kk p g = 1 + g := by rw [kk, if_neg (by omega)]
    rw [f23, hG, Outcome.bind_ok, hk]
    refine shape_ok hm _ (fun j hj => ?_) (fun j hj => ?_)
    · rw [cosHalf, get_at0 (by omega), cc, if_neg (by omega), ang, if_pos (by omega)]; rfl
    · rw [sinHalf, get_at0 (by omega), ss, if_neg (by omega), ang, if_pos (by omega)]; rfl
  have h56 : p.id = 5 ∨ p.id = 6 → f56 p x = .ok ((List.range p.fdim).map (fun i => kk p g * wt p.fdim (cc p x g) (ss p x g) i)) := by
    intro h
    have hk : kk p g = 1 + g := by rw [kk, if_neg (by omega)]
    obtain ⟨t, ht, htl, hti⟩ := theta_ok hm hx g
    rw [f56, hG, Outcome.bind_ok, ht, Outcome.bind_ok, hk]
    refine shape_ok hm _ (fun j hj => ?_) (fun j hj => ?_)
    · rw [cosHalf, get_at0 (by omega), cc, if_neg (by omega), ang, if_neg (by omega), if_neg (by omega), hti j (by omega)]; rfl
    · rw [sinHalf, get_at0 (by omega), ss, if_neg (by omega), ang, if_neg (by omega), if_neg (by omega), hti j (by omega)]; rfl
  rcases (by omega : p.id = 1 ∨ p.id = 2 ∨ p.id = 3 ∨ p.id = 4 ∨ p.id = 5 ∨ p.id = 6) with h | h | h | h | h | h
  · have hk : kk p g = 0.5 * (1 + g) := by rw [kk, if_pos h]
    rw [show fitness p x = f1 p x by simp only [fitness, h], f1, hG, Outcome.bind_ok, hk]
    refine shape_ok hm _ (fun j hj => ?_) (fun j hj => ?_)
    · rw [get_at0 (by omega), cc, if_pos h]
    · rw [oneMinus, get_at0 (by omega), ss, if_pos h]; rfl
  · rw [show fitness p x = f23 p x by simp only [fitness, h]]; exact h123 (Or.inl h)
  · rw [show fitness p x = f23 p x by simp only [fitness, h]]; exact h123 (Or.inr h)
  · have hk : kk p g = 1 + g := by rw [kk, if_neg (by omega)]
    rw [show fitness p x = f4 p x by simp only [fitness, h], f4, hG, Outcome.bind_ok, hk]
    refine shape_ok hm _ (fun j hj => ?_) (fun j hj => ?_)
    · rw [cosPow, get_at0 (by omega), cc, if_neg (by omega), ang, if_neg (by omega), if_pos h]; rfl
    · rw [sinPow, get_at0 (by omega), ss, if_neg (by omega), ang, if_neg (by omega), if_pos h]; rfl
  · rw [show fitness p x = f56 p x by simp only [fitness, h]]; exact h56 (Or.inl h)
  · rw [show fitness p x = f56 p x by simp only [fitness, h]]; exact h56 (Or.inr h)

theorem fitness7_ok (p : Dtlz) (hid : p.id = 7) (hm : 2 ≤ p.fdim) {x : List ℝ} (hx : p.fdim ≤ x.length) (g : ℝ)
    (hg : gVal p (x.drop (p.fdim - 1)) = g) :
    ∃ f, fitness p x = .ok f ∧ f.length = p.fdim ∧ (∀ i, i < p.fdim - 1 → f[i]? = some (at0 x i)) ∧
      f[p.fdim - 1]? = some ((1 + (1 + g)) *
        (p.fdim - ∑ i ∈ range (p.fdim - 1), at0 x i / (1 + (1 + g)) * (1 + Real.sin (3 * Real.pi * at0 x i)))) := by
  have hG : gFunc p (x.drop (p.fdim - 1)) = .ok g := by rw [gFunc_ok, hg]
  obtain ⟨w, hw, hwl, hwi⟩ := fillLoop_ok (a := 0) (n := p.fdim - 1) (f := Outcome.get x) (g := at0 x)
    (fun i h1 h2 => get_at0 (by omega)) (List.replicate p.fdim (0 : ℝ)) (by simp)
  rw [List.length_replicate] at hwl
  have hv : ∀ i, i < p.fdim - 1 → w[i]? = some (at0 x i) := fun i hi => by rw [hwi, if_pos (by omega)]
  have hh : h7 p w (1 + g) = .ok (p.fdim - ∑ i ∈ range (p.fdim - 1), at0 x i / (1 + (1 + g)) * (1 + Real.sin (3 * Real.pi * at0 x i))) := by
    unfold Dtlz.h7
    rw [sumLoop_ok (g := fun i => at0 x i / (1 + (1 + g)) * (1 + Real.sin (3 * Real.pi * at0 x i))), hwl, zero_add]
    · rfl
    · intro i hi
      rw [h7Term, Outcome.get_eq_ok_iff.mpr (hv i (by omega))]; rfl
  refine ⟨w.set (p.fdim - 1) ((1 + (1 + g)) *
        (p.fdim - ∑ i ∈ range (p.fdim - 1), at0 x i / (1 + (1 + g)) * (1 + Real.sin (3 * Real.pi * at0 x i)))), ?_, ?_, ?_, ?_⟩
  · unfold fitness
    simp only [hid]
    rw [f7, hG, Outcome.bind_ok]
    simp only [hw, Outcome.bind_ok, hh]
    rw [Outcome.set_of_lt (by omega)]
  · simp [hwl]
  · intro i hi
    rw [List.getElem?_set, if_neg (by omega), hv i hi]
  · rw [List.getElem?_set, if_pos rfl, if_pos (by omega)]

theorem thetaVal_unit {x : List ℝ} {g : ℝ} {j : Nat} (hg : 0 ≤ g) (h0 : 0 ≤ at0 x 0 ∧ at0 x 0 ≤ 1) (hj : 0 ≤ at0 x j ∧ at0 x j ≤ 1) :
    0 ≤ thetaVal x g j ∧ thetaVal x g j ≤ 1 := by
  unfold thetaVal
  split
  · exact h0
  · have e : 1 / (2 * (1 + g)) + g * at0 x j / (1 + g) = (1 / 2 + g * at0 x j) / (1 + g) := by
      field_simp
    rw [e]
    have := mul_nonneg hg hj.1
    have := mul_le_mul_of_nonneg_left hj.2 hg
    exact ⟨div_nonneg (by linarith) (by linarith), (div_le_one (by linarith)).mpr (by linarith)⟩

theorem ang_unit (p : Dtlz) {x : List ℝ} {g : ℝ} {j : Nat} (hg : 0 ≤ g) (h0 : 0 ≤ at0 x 0 ∧ at0 x 0 ≤ 1)
    (hj : 0 ≤ at0 x j ∧ at0 x j ≤ 1) : 0 ≤ ang p x g j ∧ ang p x g j ≤ 1 := by
  unfold ang
  split
  · exact hj
  · split
    · exact ⟨pow_nonneg hj.1 _, pow_le_one₀ hj.1 hj.2⟩
    · exact thetaVal_unit hg h0 hj

theorem cs_props (p : Dtlz) {x : List ℝ} {g : ℝ} {j : Nat} (hg : 0 ≤ g) (h0 : 0 ≤ at0 x 0 ∧ at0 x 0 ≤ 1)
    (hj : 0 ≤ at0 x j ∧ at0 x j ≤ 1) :
    0 ≤ cc p x g j ∧ 0 ≤ ss p x g j ∧ (p.id = 1 → cc p x g j + ss p x g j = 1) ∧ (p.id ≠ 1 → cc p x g j ^ 2 + ss p x g j ^ 2 = 1) := by
  have ha := ang_unit p hg h0 hj
  have hpi := Real.pi_pos
  unfold cc ss
  by_cases h : p.id = 1
  · simp only [if_pos h]
    exact ⟨hj.1, by linarith, fun _ => by ring, fun h' => absurd h h'⟩
  · simp only [if_neg h]
    have h1 : ang p x g j * (Real.pi / 2) ≤ Real.pi / 2 := by nlinarith
    have h2 : 0 ≤ ang p x g j * (Real.pi / 2) := mul_nonneg ha.1 (by linarith)
    refine ⟨Real.cos_nonneg_of_neg_pi_div_two_le_of_le (by linarith) h1, Real.sin_nonneg_of_nonneg_of_le_pi h2 (by linarith),
      fun h' => absurd h' h, fun _ => ?_⟩
    rw [add_comm]; exact Real.sin_sq_add_cos_sq _

end Verif.Dtlz
