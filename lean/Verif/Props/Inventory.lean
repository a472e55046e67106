import Verif.Model.Inventory
import Verif.Spec.Inventory
import Verif.Proof.Analytic
import Mathlib.Tactic.Linarith

/-!
# inventory
-/

set_option autoImplicit false

namespace Verif.Props

open Verif Verif.Inv Verif.Analytic Verif.Spec

variable {σ : Type}

/-- the engine after `k` draws -/
def invEngine (draw : σ → ℝ × σ) (e : σ) : Nat → σ
  | 0 => e
  | k + 1 => (draw (invEngine draw e k)).2

/-- the `k`-th demand drawn -/
def invDemand (draw : σ → ℝ × σ) (e : σ) (k : Nat) : ℝ := 100 * (draw (invEngine draw e k)).1

theorem invEngine_add (draw : σ → ℝ × σ) (e : σ) (a : Nat) : ∀ b, invEngine draw e (a + b) = invEngine draw (invEngine draw e a) b := by
  intro b
  induction b with
  | zero => rfl
  | succ b ih => rw [Nat.add_succ, invEngine, ih, invEngine]

theorem invDemand_add (draw : σ → ℝ × σ) (e : σ) (a b : Nat) : invDemand draw e (a + b) = invDemand draw (invEngine draw e a) b := by
  rw [invDemand, invEngine_add, invDemand]

theorem invLevel_congr {x y d : Nat → ℝ} : ∀ n, (∀ j, j < n → x j = y j) → invLevel x d n = invLevel y d n := by
  intro n
  induction n with
  | zero => intro _; rfl
  | succ n ih => intro h; rw [invLevel, invLevel, ih (fun j hj => h j (by omega)), h n (by omega)]

theorem invCost_succ (n : Nat) (x d : Nat → ℝ) : invCost (n + 1) x d = invCost n x d
    + (x n + 3 / 2 * max (d n - invLevel x d n - x n) 0 + 1 / 10 * max (invLevel x d n + x n - d n) 0) := by
  simp only [invCost, Finset.sum_range_succ]; ring

theorem invFold (draw : σ → ℝ × σ) (e : σ) (r : ℝ) (x : List ℝ) : ∀ n, n ≤ x.length →
    (x.take n).foldl (week draw) (e, 0, r) = (invEngine draw e n, invLevel (at0 x) (invDemand draw e) n, r + invCost n (at0 x) (invDemand draw e)) := by
  intro n
  induction n with
  | zero => intro _; simp [invEngine, invLevel, invCost]
  | succ n ih =>
    intro hn
    have hx : x[n]? = some (at0 x n) := some_at0 (by omega)
    rw [List.take_add_one, hx, Option.toList_some, List.foldl_append, ih (by omega), List.foldl_cons, List.foldl_nil, week]
    dsimp only
    have hd : (draw (invEngine draw e n)).1 * 100 = invDemand draw e n := by rw [invDemand]; ring
    rw [hd, invCost_succ]
    refine Prod.ext rfl (Prod.ext ?_ ?_)
    · rw [invLevel, max_comm]
    · dsimp only; ring

theorem invSample (draw : σ → ℝ × σ) (x : List ℝ) (s : σ × ℝ) :
    sample draw x s = (invEngine draw s.1 x.length, s.2 + invCost x.length (at0 x) (invDemand draw s.1)) := by
  have := invFold draw s.1 s.2 x x.length (le_refl _)
  rw [List.take_length] at this
  rw [sample, this]

theorem invSamples (draw : σ → ℝ × σ) (x : List ℝ) (e : σ) : ∀ n, (List.range n).foldl (fun s _ => sample draw x s) (e, 0) =
    (invEngine draw e (n * x.length), ∑ i ∈ Finset.range n, invCost x.length (at0 x) (fun j => invDemand draw e (i * x.length + j))) := by
  intro n
  induction n with
  | zero => simp [invEngine]
  | succ n ih =>
    rw [List.range_succ, List.foldl_append, ih, List.foldl_cons, List.foldl_nil, invSample, Finset.sum_range_succ, ← invEngine_add]
    refine Prod.ext ?_ ?_
    · dsimp only; congr 1; ring
    · dsimp only; congr 2; funext j; rw [invDemand_add]

/-! ## C142 -/

/-- C142: the fitness is the mean cost over the samples, with the demands drawn from the engine seeded with the seed of the problem: it does not
depend on the state of the engine, so not on what was evaluated before -/
theorem C142_value (u : Udp) (seedE : Nat → σ) (draw : σ → ℝ × σ) (x : List ℝ) (hs : 0 < u.sampleSize) (engine : σ) :
    (Inv.fitness u seedE draw x engine).1 = some ((∑ i ∈ Finset.range u.sampleSize,
      invCost x.length (fun j => x.getD j 0) (fun j => invDemand draw (seedE u.seed) (i * x.length + j))) / u.sampleSize) := by
  rw [Inv.fitness, invSamples, if_neg (by omega)]
  rfl

/-- C142: evaluations in any order and number give the same values -/
theorem C142_repeatable (u : Udp) (seedE : Nat → σ) (draw : σ → ℝ × σ) (xs : List (List ℝ)) (e e' : σ) :
    (xs.foldl (fun (s : List (Option ℝ) × σ) x => (s.1 ++ [(Inv.fitness u seedE draw x s.2).1], (Inv.fitness u seedE draw x s.2).2)) ([], e)).1
      = xs.map (fun x => (Inv.fitness u seedE draw x e').1) := by
  have : ∀ (l : List (List ℝ)) (a : List (Option ℝ)) (e : σ),
      (l.foldl (fun (s : List (Option ℝ) × σ) x => (s.1 ++ [(Inv.fitness u seedE draw x s.2).1], (Inv.fitness u seedE draw x s.2).2)) (a, e)).1
        = a ++ l.map (fun x => (Inv.fitness u seedE draw x e').1) := by
    intro l
    induction l with
    | nil => intro a e; simp
    | cons y l ih =>
      intro a e
      rw [List.foldl_cons, ih, List.map_cons, List.append_assoc]
      rfl
  rw [this, List.nil_append]

/-- C142: with sample size 0, which the constructor accepts, the fitness is not a number -/
theorem C142_empty (u : Udp) (seedE : Nat → σ) (draw : σ → ℝ × σ) (x : List ℝ) (hs : u.sampleSize = 0) (engine : σ) :
    (Inv.fitness u seedE draw x engine).1 = none := by rw [Inv.fitness, if_pos hs]

theorem invLevel_nonneg (x d : Nat → ℝ) : ∀ n, 0 ≤ invLevel x d n := by
  intro n; cases n with
  | zero => exact le_refl _
  | succ n => exact le_max_right _ _

/-- the cost without the positive parts of the shortage -/
theorem invCost_eq (x d : Nat → ℝ) : ∀ n, invCost n x d = -(1 / 2) * ∑ j ∈ Finset.range n, x j + 3 / 2 * ∑ j ∈ Finset.range n, d j
    + 3 / 2 * invLevel x d n + 1 / 10 * ∑ j ∈ Finset.range n, invLevel x d (j + 1) := by
  intro n
  induction n with
  | zero => simp [invCost, invLevel]
  | succ n ih =>
    rw [invCost_succ, ih]
    simp only [Finset.sum_range_succ]
    have h : max (d n - invLevel x d n - x n) 0 = invLevel x d (n + 1) - (invLevel x d n + x n - d n) := by
      rw [invLevel]
      rcases le_total (invLevel x d n + x n - d n) 0 with h | h
      · rw [max_eq_right h, max_eq_left (by linarith)]; ring
      · rw [max_eq_left h, max_eq_right (by linarith)]; ring
    have h2 : max (invLevel x d n + x n - d n) 0 = invLevel x d (n + 1) := by rw [invLevel]
    rw [h, h2]; ring

theorem invCost_ge_order (n : Nat) (x d : Nat → ℝ) : ∑ j ∈ Finset.range n, x j ≤ invCost n x d := by
  have h1 : 0 ≤ ∑ j ∈ Finset.range n, max (d j - invLevel x d j - x j) 0 := Finset.sum_nonneg (fun j _ => le_max_right _ _)
  have h2 : 0 ≤ ∑ j ∈ Finset.range n, max (invLevel x d j + x j - d j) 0 := Finset.sum_nonneg (fun j _ => le_max_right _ _)
  rw [invCost]; linarith

theorem invCost_ge_demand (n : Nat) (x d : Nat → ℝ) : ∑ j ∈ Finset.range n, d j ≤ invCost n x d := by
  have h1 : 0 ≤ ∑ j ∈ Finset.range n, max (d j - invLevel x d j - x j) 0 := Finset.sum_nonneg (fun j _ => le_max_right _ _)
  have h2 : 0 ≤ ∑ j ∈ Finset.range n, invLevel x d (j + 1) := Finset.sum_nonneg (fun j _ => invLevel_nonneg _ _ _)
  have h3 := invLevel_nonneg x d n
  have h4 := invCost_eq x d n
  have h5 := invCost_ge_order n x d
  linarith

theorem invLevel_convex (x y d : Nat → ℝ) {t : ℝ} (h0 : 0 ≤ t) (h1 : t ≤ 1) : ∀ n,
    invLevel (fun j => t * x j + (1 - t) * y j) d n ≤ t * invLevel x d n + (1 - t) * invLevel y d n := by
  intro n
  induction n with
  | zero => simp [invLevel]
  | succ n ih =>
    rw [invLevel, invLevel, invLevel]
    refine max_le ?_ ?_
    · have a := mul_le_mul_of_nonneg_left (le_max_left (invLevel x d n + x n - d n) 0) h0
      have b := mul_le_mul_of_nonneg_left (le_max_left (invLevel y d n + y n - d n) 0) (sub_nonneg.mpr h1)
      nlinarith
    · exact add_nonneg (mul_nonneg h0 (le_max_right _ _)) (mul_nonneg (sub_nonneg.mpr h1) (le_max_right _ _))

theorem invCost_convex (x y d : Nat → ℝ) {t : ℝ} (h0 : 0 ≤ t) (h1 : t ≤ 1) (n : Nat) :
    invCost n (fun j => t * x j + (1 - t) * y j) d ≤ t * invCost n x d + (1 - t) * invCost n y d := by
  rw [invCost_eq, invCost_eq, invCost_eq]
  have a := invLevel_convex x y d h0 h1 n
  have b : ∑ j ∈ Finset.range n, invLevel (fun j => t * x j + (1 - t) * y j) d (j + 1)
      ≤ t * ∑ j ∈ Finset.range n, invLevel x d (j + 1) + (1 - t) * ∑ j ∈ Finset.range n, invLevel y d (j + 1) := by
    rw [Finset.mul_sum, Finset.mul_sum, ← Finset.sum_add_distrib]
    exact Finset.sum_le_sum (fun j _ => invLevel_convex x y d h0 h1 (j + 1))
  have c : ∑ j ∈ Finset.range n, (t * x j + (1 - t) * y j) = t * ∑ j ∈ Finset.range n, x j + (1 - t) * ∑ j ∈ Finset.range n, y j := by
    rw [Finset.mul_sum, Finset.mul_sum, ← Finset.sum_add_distrib]
  rw [c]
  linarith

/-- C142: the fitness is a convex function of the orders, for any demands -/
theorem C142_convex (u : Udp) (seedE : Nat → σ) (draw : σ → ℝ × σ) {x y z : List ℝ} (hy : y.length = x.length) (hz : z.length = x.length) {t : ℝ}
    (h0 : 0 ≤ t) (h1 : t ≤ 1) (h : ∀ (i : Nat) (a b c : ℝ), x[i]? = some a → y[i]? = some b → z[i]? = some c → c = t * a + (1 - t) * b)
    {fx fy fz : ℝ} {engine : σ} (hfx : (Inv.fitness u seedE draw x engine).1 = some fx) (hfy : (Inv.fitness u seedE draw y engine).1 = some fy)
    (hfz : (Inv.fitness u seedE draw z engine).1 = some fz) : fz ≤ t * fx + (1 - t) * fy := by
  have hs : 0 < u.sampleSize := by
    by_contra hc
    rw [C142_empty u seedE draw x (by omega)] at hfx; cases hfx
  rw [C142_value u seedE draw _ hs] at hfx hfy hfz
  cases hfx; cases hfy; cases hfz
  rw [hy, hz]
  have hzz : ∀ d, invCost x.length (fun j => z.getD j 0) d = invCost x.length (fun j => t * x.getD j 0 + (1 - t) * y.getD j 0) d := by
    intro d
    have hp : ∀ j, j < x.length → z.getD j 0 = t * x.getD j 0 + (1 - t) * y.getD j 0 := by
      intro j hj
      have h1 := some_at0 (x := x) hj
      have h2 := some_at0 (x := y) (i := j) (by omega)
      have h3 := some_at0 (x := z) (i := j) (by omega)
      exact h j _ _ _ h1 h2 h3
    rw [invCost_eq, invCost_eq, invLevel_congr _ hp, Finset.sum_congr rfl (fun j hj => hp j (Finset.mem_range.mp hj))]
    congr 2
    exact Finset.sum_congr rfl (fun j hj => invLevel_congr _ (fun i hi => hp i (by have := Finset.mem_range.mp hj; omega)))
  have hn : (0 : ℝ) < u.sampleSize := by exact_mod_cast hs
  rw [← mul_div_assoc, ← mul_div_assoc, ← add_div, div_le_div_iff_of_pos_right hn, Finset.mul_sum, Finset.mul_sum, ← Finset.sum_add_distrib]
  refine Finset.sum_le_sum (fun i _ => ?_)
  rw [hzz]
  exact invCost_convex _ _ _ h0 h1 _

/-- C142: no plan is cheaper than what it orders, nor than ordering the mean demand: the fitness is at least both -/
theorem C142_lower (u : Udp) (seedE : Nat → σ) (draw : σ → ℝ × σ) {x : List ℝ} {f : ℝ} {engine : σ}
    (hf : (Inv.fitness u seedE draw x engine).1 = some f) :
    ∑ j ∈ Finset.range x.length, x.getD j 0 ≤ f ∧
    (∑ i ∈ Finset.range u.sampleSize, ∑ j ∈ Finset.range x.length, invDemand draw (seedE u.seed) (i * x.length + j)) / u.sampleSize ≤ f := by
  have hs : 0 < u.sampleSize := by
    by_contra hc
    rw [C142_empty u seedE draw x (by omega)] at hf; cases hf
  rw [C142_value u seedE draw _ hs] at hf
  cases hf
  have hn : (0 : ℝ) < u.sampleSize := by exact_mod_cast hs
  constructor
  · rw [le_div_iff₀ hn]
    calc _ = ∑ _i ∈ Finset.range u.sampleSize, ∑ j ∈ Finset.range x.length, x.getD j 0 := by
          rw [Finset.sum_const, Finset.card_range, nsmul_eq_mul, mul_comm]
      _ ≤ _ := Finset.sum_le_sum (fun i _ => invCost_ge_order _ _ _)
  · rw [div_le_div_iff_of_pos_right hn]
    exact Finset.sum_le_sum (fun i _ => invCost_ge_demand _ _ _)

/-- C142: the bounds -/
theorem C142_bounds (u : Udp) : (Inv.bounds u).1.length = u.weeks ∧ (Inv.bounds u).2.length = u.weeks ∧
    (∀ v ∈ (Inv.bounds u).1, v = 0) ∧ ∀ v ∈ (Inv.bounds u).2, v = 200 :=
  ⟨List.length_replicate, List.length_replicate, fun _ h => List.eq_of_mem_replicate h, fun _ h => List.eq_of_mem_replicate h⟩

/-- an engine that always draws 1/2: ordering the demand 50 costs 50, ordering nothing 75 -/
example : (Inv.fitness ⟨1, 2, 0⟩ (fun _ => ()) (fun _ => (1 / 2, ())) [50] ()).1 = some 50 ∧
    (Inv.fitness ⟨1, 2, 0⟩ (fun _ => ()) (fun _ => (1 / 2, ())) [0] ()).1 = some 75 := by
  constructor
  · rw [C142_value _ _ _ _ (by norm_num)]; norm_num [invCost, invLevel, invDemand, Finset.sum_range_succ]
  · rw [C142_value _ _ _ _ (by norm_num)]; norm_num [invCost, invLevel, invDemand, Finset.sum_range_succ]

end Verif.Props
