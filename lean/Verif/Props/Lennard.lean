import Verif.Model.Lennard
import Verif.Spec.Lennard
import Verif.Proof.Analytic
import Mathlib.Analysis.InnerProductSpace.GramSchmidtOrtho
import Mathlib.Analysis.SpecialFunctions.Pow.Real
import Mathlib.Tactic.IntervalCases
import Mathlib.Tactic.Linarith

/-!
# lennard_jones
-/

set_option autoImplicit false

namespace Verif.Props

open Verif Verif.Lj Verif.Analytic Verif.Spec

/-! ## helpers -/

theorem ljCoord {n : Nat} {x : List ℝ} (hn : 3 ≤ n) (hx : x.length = 3 * n - 6) {a : Nat} (ha : a < n) :
    coordOf x a 0 = .ok (cluster x a 0) ∧ coordOf x a 1 = .ok (cluster x a 1) ∧ coordOf x a 2 = .ok (cluster x a 2) := by
  match a with
  | 0 => exact ⟨rfl, rfl, rfl⟩
  | 1 =>
    refine ⟨rfl, rfl, ?_⟩
    simp only [coordOf]
    exact get_at0 (by omega)
  | 2 =>
    refine ⟨rfl, ?_, ?_⟩
    · exact get_at0 (by omega)
    · exact get_at0 (by omega)
  | k + 3 =>
    refine ⟨?_, ?_, ?_⟩
    · have : coordOf x (k + 3) 0 = Outcome.get x (3 * k + 3) := by
        unfold coordOf; rw [if_neg (by omega), if_neg (by omega), if_neg (by omega)]; congr 1
      rw [this]; exact get_at0 (by omega)
    · have : coordOf x (k + 3) 1 = Outcome.get x (3 * k + 4) := by
        unfold coordOf; rw [if_neg (by omega), if_neg (by omega), if_neg (by omega)]; congr 1
      rw [this]; exact get_at0 (by omega)
    · have : coordOf x (k + 3) 2 = Outcome.get x (3 * k + 5) := by
        unfold coordOf; rw [if_neg (by omega), if_neg (by omega), if_neg (by omega)]; congr 1
      rw [this]; exact get_at0 (by omega)

theorem ljDist (p q : Space) : (p 0 - q 0) ^ 2 + (p 1 - q 1) ^ 2 + (p 2 - q 2) ^ 2 = dist p q ^ 2 := by
  rw [EuclideanSpace.dist_eq, Real.sq_sqrt (Finset.sum_nonneg (fun i _ => sq_nonneg _)), Fin.sum_univ_three]
  simp only [Real.dist_eq, sq_abs]

theorem ljStep {n : Nat} {x : List ℝ} (hn : 3 ≤ n) (hx : x.length = 3 * n - 6) {f : Pot} {ij : Nat × Nat} (h1 : ij.1 < n) (h2 : ij.2 < n) :
    pairStep x f ij = if cluster x ij.1 = cluster x ij.2 then .ok .top else match f with
      | .val v => .ok (.val (v + (1 / dist (cluster x ij.1) (cluster x ij.2) ^ 12 - 1 / dist (cluster x ij.1) (cluster x ij.2) ^ 6)))
      | .top => .ok .top := by
  obtain ⟨a0, a1, a2⟩ := ljCoord hn hx h1
  obtain ⟨b0, b1, b2⟩ := ljCoord hn hx h2
  rw [pairStep, a0, a1, a2, b0, b1, b2]
  simp only [Outcome.bind_ok]
  rw [ljDist]
  by_cases h : cluster x ij.1 = cluster x ij.2
  · rw [if_pos h, if_pos (by rw [h, dist_self]; ring)]
  · rw [if_neg h, if_neg (pow_ne_zero 2 (dist_ne_zero.mpr h))]
    cases f with
    | top => rfl
    | val v =>
      dsimp only
      congr 3
      rw [← pow_mul, one_div, one_div]
      congr 1
      rw [inv_pow, ← pow_mul]

theorem ljFold_top {n : Nat} {x : List ℝ} (hn : 3 ≤ n) (hx : x.length = 3 * n - 6) :
    ∀ (l : List (Nat × Nat)), (∀ p ∈ l, p.1 < n ∧ p.2 < n) → l.foldlM (pairStep x) .top = .ok .top := by
  intro l
  induction l with
  | nil => intro _; rfl
  | cons p l ih =>
    intro h
    have hp := h p (List.mem_cons_self ..)
    rw [List.foldlM_cons, ljStep hn hx hp.1 hp.2, show (if cluster x p.1 = cluster x p.2 then (Outcome.ok Pot.top) else
      match Pot.top with
      | .val v => Outcome.ok (Pot.val (v + (1 / dist (cluster x p.1) (cluster x p.2) ^ 12 - 1 / dist (cluster x p.1) (cluster x p.2) ^ 6)))
      | .top => Outcome.ok Pot.top) = Outcome.ok Pot.top from ite_self _, Outcome.bind_ok]
    exact ih (fun q hq => h q (List.mem_cons_of_mem _ hq))

theorem ljFold {n : Nat} {x : List ℝ} (hn : 3 ≤ n) (hx : x.length = 3 * n - 6) :
    ∀ (l : List (Nat × Nat)) (v : ℝ), (∀ p ∈ l, p.1 < n ∧ p.2 < n) →
      ((∀ p ∈ l, cluster x p.1 ≠ cluster x p.2) → l.foldlM (pairStep x) (.val v) = .ok (.val (v +
        (l.map (fun p => 1 / dist (cluster x p.1) (cluster x p.2) ^ 12 - 1 / dist (cluster x p.1) (cluster x p.2) ^ 6)).sum))) ∧
      (¬(∀ p ∈ l, cluster x p.1 ≠ cluster x p.2) → l.foldlM (pairStep x) (.val v) = .ok .top) := by
  intro l
  induction l with
  | nil => intro v _; exact ⟨fun _ => by simp, fun h => absurd (fun p hp => by cases hp) h⟩
  | cons p l ih =>
    intro v h
    have hp := h p (List.mem_cons_self ..)
    have hl := fun q hq => h q (List.mem_cons_of_mem _ hq)
    rw [List.foldlM_cons, ljStep hn hx hp.1 hp.2]
    by_cases hc : cluster x p.1 = cluster x p.2
    · rw [if_pos hc, Outcome.bind_ok, ljFold_top hn hx l hl]
      exact ⟨fun h2 => absurd hc (h2 p (List.mem_cons_self ..)), fun _ => rfl⟩
    · rw [if_neg hc, Outcome.bind_ok]
      constructor
      · intro h2
        rw [(ih _ hl).1 (fun q hq => h2 q (List.mem_cons_of_mem _ hq)), List.map_cons, List.sum_cons, add_assoc]
      · intro h2
        refine (ih _ hl).2 (fun h3 => h2 (fun q hq => ?_))
        rcases List.mem_cons.mp hq with rfl | hq
        · exact hc
        · exact h3 q hq

theorem ljPairs_mem {n : Nat} {p : Nat × Nat} : p ∈ pairs n ↔ p.1 < p.2 ∧ p.2 < n := by
  obtain ⟨i, j⟩ := p
  simp only [pairs, List.mem_flatMap, List.mem_range, List.mem_map, List.mem_range'_1, Prod.mk.injEq]
  constructor
  · rintro ⟨a, h1, b, h2, rfl, rfl⟩; omega
  · rintro ⟨h1, h2⟩; exact ⟨i, by omega, j, by omega, rfl, rfl⟩

theorem ljSum_flatMap {α : Type} (f : α → List ℝ) : ∀ l : List α, (l.flatMap f).sum = (l.map (fun a => (f a).sum)).sum := by
  intro l
  induction l with
  | nil => rfl
  | cons a l ih => rw [List.flatMap_cons, List.sum_append, ih, List.map_cons, List.sum_cons]

theorem ljPairs_sum (n : Nat) (g : Nat → Nat → ℝ) : ((pairs n).map (fun p => g p.1 p.2)).sum = ∑ i ∈ Finset.range n, ∑ j ∈ Finset.Ico (i + 1) n, g i j := by
  have h1 : ((pairs n).map (fun p => g p.1 p.2)).sum = ∑ i ∈ Finset.range (n - 1), ∑ j ∈ Finset.Ico (i + 1) n, g i j := by
    unfold pairs
    rw [List.map_flatMap, ljSum_flatMap]
    simp only [List.map_map]
    rfl
  rw [h1]
  cases n with
  | zero => rfl
  | succ m => rw [Finset.sum_range_succ, Finset.Ico_self, Finset.sum_empty, add_zero, Nat.add_sub_cancel]

/-! ## C141 -/

/-- C141: the constructor -/
theorem C141_ctor (maxU atoms : Nat) :
    (atoms < 3 → Lj.construct maxU atoms = .throws .invalidArgument) ∧
    (3 ≤ atoms → maxU < 3 * (atoms - 2) → Lj.construct maxU atoms = .throws .overflowError) ∧
    (3 ≤ atoms → 3 * (atoms - 2) ≤ maxU → Lj.construct maxU atoms = .ok atoms) := by
  refine ⟨fun h => by rw [Lj.construct, if_pos h], fun h1 h2 => ?_, fun h1 h2 => ?_⟩
  · rw [Lj.construct, if_neg (by omega), if_pos (by omega)]
  · rw [Lj.construct, if_neg (by omega), if_neg (by omega)]

/-- C141: the fitness is the potential of the cluster the decision vector stands for, and infinite if two atoms are at the same place; every
access is within the decision vector. -/
theorem C141_fitness {n : Nat} (hn : 3 ≤ n) {x : List ℝ} (hx : x.length = (Lj.bounds n).1.length) :
    (Apart n (cluster x) → Lj.fitness n x = .ok [.val (ljEnergy n (cluster x))]) ∧
    (¬Apart n (cluster x) → Lj.fitness n x = .ok [.top]) := by
  have hx : x.length = 3 * n - 6 := by simpa [Lj.bounds] using hx
  have hm : ∀ p ∈ pairs n, p.1 < n ∧ p.2 < n := by
    intro p hp; have := ljPairs_mem.mp hp; omega
  have ha : (∀ p ∈ pairs n, cluster x p.1 ≠ cluster x p.2) ↔ Apart n (cluster x) :=
    ⟨fun h i j h1 h2 => h (i, j) (ljPairs_mem.mpr ⟨h1, h2⟩), fun h p hp => h p.1 p.2 (ljPairs_mem.mp hp).1 (ljPairs_mem.mp hp).2⟩
  have hf := ljFold hn hx (pairs n) 0 hm
  constructor
  · intro h
    rw [Lj.fitness, hf.1 (ha.mpr h), Outcome.bind_ok]
    dsimp only
    rw [zero_add, ljPairs_sum n (fun i j => 1 / dist (cluster x i) (cluster x j) ^ 12 - 1 / dist (cluster x i) (cluster x j) ^ 6), ljEnergy,
      Finset.mul_sum]
    simp only [Finset.mul_sum]
  · intro h
    rw [Lj.fitness, hf.2 (fun h2 => h (ha.mp h2)), Outcome.bind_ok]

theorem ljPair_ge (r : ℝ) : -1 ≤ 4 * (1 / r ^ 12 - 1 / r ^ 6) := by
  have : 1 / r ^ 12 = (1 / r ^ 6) ^ 2 := by rw [div_pow, one_pow, ← pow_mul]
  rw [this]
  nlinarith [sq_nonneg (1 / r ^ 6 - 1 / 2)]

theorem ljCount (n : Nat) : ∑ i ∈ Finset.range n, ∑ _j ∈ Finset.Ico (i + 1) n, (-1 : ℝ) = -((n : ℝ) * (n - 1) / 2) := by
  have h : ∑ i ∈ Finset.range n, ∑ _j ∈ Finset.Ico (i + 1) n, (-1 : ℝ) = ∑ i ∈ Finset.range n, (1 - (n : ℝ) + i) := by
    refine Finset.sum_congr rfl (fun i hi => ?_)
    have := Finset.mem_range.mp hi
    rw [Finset.sum_const, Nat.card_Ico, nsmul_eq_mul, Nat.cast_sub (by omega)]
    push_cast; ring
  rw [h, Finset.sum_add_distrib, Finset.sum_const, Finset.card_range, nsmul_eq_mul]
  have h2 : ∑ i ∈ Finset.range n, (i : ℝ) = (n : ℝ) * (n - 1) / 2 := by
    clear h
    induction n with
    | zero => simp
    | succ m ih => rw [Finset.sum_range_succ, ih]; push_cast; ring
  rw [h2]; ring

/-- C141: no pair contributes less than -1, so the fitness is at least minus the number of pairs -/
theorem C141_bound {n : Nat} (hn : 3 ≤ n) {x : List ℝ} (hx : x.length = (Lj.bounds n).1.length) {v : ℝ} (h : Lj.fitness n x = .ok [.val v]) :
    -((n : ℝ) * (n - 1) / 2) ≤ v := by
  by_cases ha : Apart n (cluster x)
  · rw [(C141_fitness hn hx).1 ha] at h
    cases h
    rw [← ljCount, ljEnergy]
    exact Finset.sum_le_sum (fun i _ => Finset.sum_le_sum (fun j _ => ljPair_ge _))
  · rw [(C141_fitness hn hx).2 ha] at h; cases h

/-- C141: the decision vectors stand for all clusters: the potential of any atoms at different places is the fitness of a decision vector -/
theorem C141_any {n : Nat} (hn : 3 ≤ n) (P : Nat → Space) (hP : Apart n P) :
    ∃ x : List ℝ, x.length = (Lj.bounds n).1.length ∧ Lj.fitness n x = .ok [.val (ljEnergy n P)] := by
  have hcard : Module.finrank ℝ Space = Fintype.card (Fin 3) := by simp
  let g : Fin 3 → Space := ![P 1 - P 0, P 2 - P 0, 0]
  let b := InnerProductSpace.gramSchmidtOrthonormalBasis hcard g
  let c : Nat → Fin 3 → ℝ := fun k j => inner ℝ (b j) (P k - P 0)
  have e01 : c 1 1 = 0 := InnerProductSpace.gramSchmidtOrthonormalBasis_inv_triangular hcard g (i := 0) (j := 1) (by decide)
  have e02 : c 1 2 = 0 := InnerProductSpace.gramSchmidtOrthonormalBasis_inv_triangular hcard g (i := 0) (j := 2) (by decide)
  have e12 : c 2 2 = 0 := InnerProductSpace.gramSchmidtOrthonormalBasis_inv_triangular hcard g (i := 1) (j := 2) (by decide)
  have e0 : ∀ j, c 0 j = 0 := fun j => by simp [c]
  let pt : Nat → ℝ := fun i => if i = 0 then c 1 0 else if i = 1 then c 2 1 else if i = 2 then c 2 0 else
    c (i / 3 + 2) (if i % 3 = 0 then 2 else if i % 3 = 1 then 1 else 0)
  let x : List ℝ := (List.range (3 * n - 6)).map pt
  have hx : x.length = 3 * n - 6 := by simp [x]
  have hat : ∀ i, i < 3 * n - 6 → x.getD i 0 = pt i := by
    intro i hi
    simp [x, List.getD_eq_getElem?_getD, hi]
  have hcl : ∀ k, k < n → cluster x k 0 = c k 2 ∧ cluster x k 1 = c k 1 ∧ cluster x k 2 = c k 0 := by
    intro k hk
    match k with
    | 0 => refine ⟨?_, ?_, ?_⟩ <;> rw [e0] <;> rfl
    | 1 => exact ⟨by rw [e02]; rfl, by rw [e01]; rfl, by change x.getD 0 0 = _; rw [hat 0 (by omega)]; rfl⟩
    | 2 =>
      exact ⟨by rw [e12]; rfl, by change x.getD 1 0 = _; rw [hat 1 (by omega)]; rfl, by change x.getD 2 0 = _; rw [hat 2 (by omega)]; rfl⟩
    | k + 3 =>
      refine ⟨?_, ?_, ?_⟩
      · change x.getD (3 * k + 3) 0 = _
        rw [hat _ (by omega)]
        simp only [pt]
        rw [if_neg (by omega), if_neg (by omega), if_neg (by omega), if_pos (by omega), show (3 * k + 3) / 3 + 2 = k + 3 by omega]
      · change x.getD (3 * k + 4) 0 = _
        rw [hat _ (by omega)]
        simp only [pt]
        rw [if_neg (by omega), if_neg (by omega), if_neg (by omega), if_neg (by omega), if_pos (by omega), show (3 * k + 4) / 3 + 2 = k + 3 by omega]
      · change x.getD (3 * k + 5) 0 = _
        rw [hat _ (by omega)]
        simp only [pt]
        rw [if_neg (by omega), if_neg (by omega), if_neg (by omega), if_neg (by omega), if_neg (by omega), show (3 * k + 5) / 3 + 2 = k + 3 by omega]
  have hd : ∀ i j, i < n → j < n → dist (cluster x i) (cluster x j) = dist (P i) (P j) := by
    intro i j hi hj
    have h1 : dist (cluster x i) (cluster x j) ^ 2 = dist (P i) (P j) ^ 2 := by
      rw [← ljDist, (hcl i hi).1, (hcl i hi).2.1, (hcl i hi).2.2, (hcl j hj).1, (hcl j hj).2.1, (hcl j hj).2.2, dist_eq_norm (P i),
        ← b.sum_sq_norm_inner_right, Fin.sum_univ_three]
      simp only [c, ← inner_sub_right, sub_sub_sub_cancel_right, Real.norm_eq_abs, sq_abs]
      ring
    exact (pow_left_inj₀ dist_nonneg dist_nonneg (by norm_num)).mp h1
  have hA : Apart n (cluster x) := by
    intro i j h1 h2 h3
    refine hP i j h1 h2 (dist_eq_zero.mp ?_)
    rw [← hd i j (by omega) h2, h3, dist_self]
  have hx' : x.length = (Lj.bounds n).1.length := by simp [Lj.bounds, hx]
  refine ⟨x, hx', ?_⟩
  rw [(C141_fitness hn hx').1 hA, ljEnergy, ljEnergy]
  congr 3
  refine Finset.sum_congr rfl (fun i hi => Finset.sum_congr rfl (fun j hj => ?_))
  have := Finset.mem_range.mp hi
  have := (Finset.mem_Ico.mp hj).2
  rw [hd i j (by omega) (by omega)]

/-- C141: the bounds: the dimension is 3 n - 6, the first coordinates of the atoms from the fourth on are within [0, 6], all the other
variables within [-3, 3] -/
theorem C141_bounds {n : Nat} (hn : 3 ≤ n) :
    (Lj.bounds n).1.length = 3 * n - 6 ∧ (Lj.bounds n).2.length = 3 * n - 6 ∧
    (∀ k, k + 3 < n → (Lj.bounds n).1[3 * k + 3]? = some 0 ∧ (Lj.bounds n).2[3 * k + 3]? = some 6) ∧
    ∀ i, i < 3 * n - 6 → (∀ k, i ≠ 3 * k + 3) → (Lj.bounds n).1[i]? = some (-3) ∧ (Lj.bounds n).2[i]? = some 3 := by
  refine ⟨by simp [Lj.bounds], by simp [Lj.bounds], fun k hk => ?_, fun i hi hk => ?_⟩
  · simp only [Lj.bounds, List.getElem?_map, List.getElem?_range (show 3 * k + 3 < 3 * n - 6 by omega), Option.map_some]
    rw [if_pos (by omega), if_pos (by omega)]
    exact ⟨rfl, rfl⟩
  · have : ¬(i ≠ 0 ∧ i % 3 = 0) := by
      rintro ⟨h1, h2⟩
      exact hk (i / 3 - 1) (by omega)
    simp only [Lj.bounds, List.getElem?_map, List.getElem?_range hi, Option.map_some]
    rw [if_neg this, if_neg this]
    exact ⟨rfl, rfl⟩

example : Apart 3 (cluster [1, 1, 0]) := by
  intro i j h1 h2
  interval_cases j <;> interval_cases i <;> intro h
  · have := congrFun (congrArg (fun p : Space => p.ofLp) h) 2; simp [cluster] at this
  · have := congrFun (congrArg (fun p : Space => p.ofLp) h) 1; simp [cluster] at this
  · have := congrFun (congrArg (fun p : Space => p.ofLp) h) 1; simp [cluster] at this

/-- an edge of the optimal triangle and tetrahedron: the distance at which the pair potential is lowest -/
theorem ljEdge : ∃ s : ℝ, 0 < s ∧ s ^ 6 = 2 ∧ s ≤ 3 / 2 := by
  refine ⟨2 ^ (1 / 6 : ℝ), by positivity, ?_, ?_⟩
  · rw [← Real.rpow_natCast, ← Real.rpow_mul (by norm_num)]; norm_num
  · have h : ((2 : ℝ) ^ (1 / 6 : ℝ)) ^ 6 = 2 := by rw [← Real.rpow_natCast, ← Real.rpow_mul (by norm_num)]; norm_num
    by_contra hc
    have := pow_lt_pow_left₀ (not_le.mp hc) (by norm_num) (show 6 ≠ 0 by norm_num)
    rw [h] at this
    norm_num at this

/-- if all distances are that of the lowest pair potential, the potential is minus the number of pairs -/
theorem ljOpt {n : Nat} {P : Nat → Space} {s : ℝ} (hs : s ^ 6 = 2) (h : ∀ i j, i < j → j < n → dist (P i) (P j) = s) :
    ljEnergy n P = -((n : ℝ) * (n - 1) / 2) := by
  rw [← ljCount, ljEnergy]
  refine Finset.sum_congr rfl (fun i hi => Finset.sum_congr rfl (fun j hj => ?_))
  have := Finset.mem_Ico.mp hj
  rw [h i j (by omega) (by omega), show s ^ 12 = (s ^ 6) ^ 2 by ring, hs]
  norm_num

theorem ljDist_of {p q : Space} {s : ℝ} (hs : 0 ≤ s) (h : (p 0 - q 0) ^ 2 + (p 1 - q 1) ^ 2 + (p 2 - q 2) ^ 2 = s ^ 2) : dist p q = s := by
  rw [ljDist] at h
  exact (pow_left_inj₀ dist_nonneg hs (by norm_num)).mp h

/-- C141: three atoms have the minimum -3 and four the minimum -6, both within the bounds: the bound of `C141_bound` is reached -/
theorem C141_small {n : Nat} (hn : n = 3 ∨ n = 4) :
    ∃ x : List ℝ, x.length = (Lj.bounds n).1.length ∧
      (∀ (i : Nat) (l u v : ℝ), (Lj.bounds n).1[i]? = some l → (Lj.bounds n).2[i]? = some u → x[i]? = some v → l ≤ v ∧ v ≤ u) ∧
      Lj.fitness n x = .ok [.val (-((n : ℝ) * (n - 1) / 2))] := by
  obtain ⟨s, h0, h6, h1⟩ := ljEdge
  have h3 := Real.sq_sqrt (show (0 : ℝ) ≤ 3 by norm_num)
  have h30 := Real.sqrt_nonneg (3 : ℝ)
  have h32 : Real.sqrt 3 ≤ 2 := by rw [Real.sqrt_le_left (by norm_num)]; norm_num
  have h2 := Real.sq_sqrt (show (0 : ℝ) ≤ 6 by norm_num)
  have h20 := Real.sqrt_nonneg (6 : ℝ)
  have h22 : Real.sqrt 6 ≤ 3 := by rw [Real.sqrt_le_left (by norm_num)]; norm_num
  generalize Real.sqrt 3 = t at *
  generalize Real.sqrt 6 = w at *
  have key : ∀ (x : List ℝ), x.length = (Lj.bounds n).1.length → (∀ i j, i < j → j < n → dist (cluster x i) (cluster x j) = s) →
      Lj.fitness n x = .ok [.val (-((n : ℝ) * (n - 1) / 2))] := by
    intro x hx hd
    rw [(C141_fitness (by omega) hx).1 (fun i j hi hj he => by
      have := hd i j hi hj; rw [he, dist_self] at this; linarith), ljOpt h6 hd]
  have b1 : s * t ≤ 3 := by nlinarith
  have b2 : 0 ≤ s * t := by positivity
  have b3 : s * w ≤ 9 / 2 := by nlinarith
  have b4 : 0 ≤ s * w := by positivity
  rcases hn with rfl | rfl
  · refine ⟨[s, s * t / 2, s / 2], rfl, ?_, key _ rfl ?_⟩
    · intro i l u v hl hu hv
      have hi : i < 3 := (List.getElem?_eq_some_iff.mp hv).1
      interval_cases i <;> simp [Lj.bounds, List.range_succ] at hl hu hv <;> subst hl hu hv <;> constructor <;> linarith
    · intro i j hi hj
      interval_cases j <;> interval_cases i <;> refine ljDist_of h0.le ?_ <;> simp [cluster] <;> nlinarith
  · refine ⟨[s, s * t / 2, s / 2, s * w / 3, s * t / 6, s / 2], rfl, ?_, key _ rfl ?_⟩
    · intro i l u v hl hu hv
      have hi : i < 6 := (List.getElem?_eq_some_iff.mp hv).1
      interval_cases i <;> simp [Lj.bounds, List.range_succ] at hl hu hv <;> subst hl hu hv <;> constructor <;> linarith
    · have e1 : (s * t) ^ 2 = 3 * s ^ 2 := by rw [mul_pow, h3]; ring
      have e2 : (s * w) ^ 2 = 6 * s ^ 2 := by rw [mul_pow, h2]; ring
      intro i j hi hj
      interval_cases j <;> interval_cases i <;> refine ljDist_of h0.le ?_ <;> simp [cluster] <;> nlinarith

end Verif.Props
