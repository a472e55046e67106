import Verif.Model.Problem
import Verif.Props.Problem
import Verif.Proof.Analytic
import Mathlib.Tactic.FinCases
import Mathlib.Tactic.IntervalCases
import Mathlib.Tactic.LinearCombination

/-!
# C80: the gradients and Hessians of the test problems are the derivatives of their fitness

The statements are about the functions `fitness`, `gradient`, `hessians` and the sparsity patterns as they are seen by a caller, over
the real numbers.
-/

set_option autoImplicit false

namespace Verif.Props

open Verif Verif.Analytic Verif.Prob Finset

/-- `v` is the partial derivative of component `r` of `f` in variable `c` at `x`. -/
def IsPartial (f : List ℝ → Outcome (List ℝ)) (r c : Nat) (x : List ℝ) (v : ℝ) : Prop :=
  ∃ (φ : ℝ → ℝ) (a : ℝ), x[c]? = some a ∧ (∀ t, ∃ y, f (x.set c t) = .ok y ∧ y[r]? = some (φ t)) ∧ HasDerivAt φ v a

/-- `v` is the second derivative of component `r` of `f` in the variables `c` and then `d` at `x`. -/
def IsPartial2 (f : List ℝ → Outcome (List ℝ)) (r c d : Nat) (x : List ℝ) (v : ℝ) : Prop :=
  ∃ (φ : ℝ → ℝ) (a : ℝ), x[d]? = some a ∧ (∀ t, IsPartial f r c (x.set d t) (φ t)) ∧ HasDerivAt φ v a

/-- `grad` is the gradient of `fit` (`nf` components, `nx` variables) in the sparse format given by `pat`: one number for each entry of the
pattern, which is the partial derivative named by it; and the partial derivatives outside the pattern are zero. -/
def GradientOf (fit grad : List ℝ → Outcome (List ℝ)) (nf nx : Nat) (pat : List (Nat × Nat)) : Prop :=
  GradPattern nf nx pat ∧
  ∀ x : List ℝ, x.length = nx →
    (∃ y, fit x = .ok y ∧ y.length = nf) ∧
    ∃ g, grad x = .ok g ∧ g.length = pat.length ∧
      (∀ (k r c : Nat) (v : ℝ), pat[k]? = some (r, c) → g[k]? = some v → IsPartial fit r c x v) ∧
      (∀ r c : Nat, r < nf → c < nx → (r, c) ∉ pat → IsPartial fit r c x 0)

/-- `hess` gives the Hessians of the components of `fit` in the sparse format given by `pats`: the entries are the second derivatives of
the lower triangle, and those which are left out are zero. -/
def HessiansOf (fit : List ℝ → Outcome (List ℝ)) (hess : List ℝ → Outcome (List (List ℝ))) (nf nx : Nat)
    (pats : List (List (Nat × Nat))) : Prop :=
  pats.length = nf ∧ (∀ pat ∈ pats, HessPattern nx pat) ∧
  ∀ x : List ℝ, x.length = nx →
    ∃ hs, hess x = .ok hs ∧ hs.length = nf ∧
      ∀ (r : Nat) (pat : List (Nat × Nat)) (h : List ℝ), pats[r]? = some pat → hs[r]? = some h →
        h.length = pat.length ∧
        (∀ (k c d : Nat) (v : ℝ), pat[k]? = some (c, d) → h[k]? = some v → IsPartial2 fit r c d x v) ∧
        (∀ c d : Nat, c < nx → d ≤ c → (c, d) ∉ pat → IsPartial2 fit r c d x 0)

theorem isPartial_of {f : List ℝ → Outcome (List ℝ)} {r c : Nat} {x : List ℝ} {v : ℝ} (φ : ℝ → ℝ) (hc : c < x.length)
    (h1 : ∀ t, ∃ y, f (x.set c t) = .ok y ∧ y[r]? = some (φ t)) (h2 : HasDerivAt φ v (at0 x c)) : IsPartial f r c x v :=
  ⟨φ, at0 x c, some_at0 hc, h1, h2⟩

theorem denseGradient_one (nx : Nat) : denseGradient 1 nx = (List.range nx).map (fun i => (0, i)) := by simp [denseGradient]

theorem denseGradient_one_get {nx k r c : Nat} (h : (denseGradient 1 nx)[k]? = some (r, c)) : r = 0 ∧ c = k ∧ k < nx := by
  rw [denseGradient_one, List.getElem?_map] at h
  by_cases hk : k < nx
  · rw [List.getElem?_range hk] at h
    simp at h; exact ⟨h.1.symm, h.2.symm, hk⟩
  · rw [List.getElem?_eq_none (by simpa using hk)] at h; simp at h

/-- C80 (rosenbrock). The gradient, in the dense format, is that of the fitness. -/
theorem C80_rosenbrock (dim d : Nat) (h : rosenCtor dim = .ok d) :
    GradientOf (rosenFitness d) (rosenGradient d) 1 d (denseGradient 1 d) := by
  have hd : 2 ≤ d := by
    unfold rosenCtor at h; split at h
    · cases h
    · cases h; omega
  refine ⟨(C22_dense_gradient 1 d).1, fun x hx => ⟨⟨_, rosenFitness_ok hx, rfl⟩, ?_⟩⟩
  have hf : rosenFirst x = .ok (-400 * at0 x 0 * (at0 x 1 - at0 x 0 * at0 x 0) - 2 * (1 - at0 x 0)) := by
    rw [rosenFirst, get_at0 (by omega), get_at0 (by omega)]; rfl
  have hl : rosenLast d x = .ok (200 * (at0 x (d - 1) - at0 x (d - 2) * at0 x (d - 2))) := by
    rw [rosenLast, get_at0 (by omega), get_at0 (by omega)]; rfl
  obtain ⟨w, hw, hwl, hwi⟩ := fillLoop_ok (a := 1) (n := d - 1 - 1) (f := rosenMid x)
    (g := fun i => -400 * at0 x i * (at0 x (i + 1) - at0 x i * at0 x i) - 2 * (1 - at0 x i) + 200 * (at0 x i - at0 x (i - 1) * at0 x (i - 1)))
    (fun i h1 h2 => by rw [rosenMid, get_at0 (by omega), get_at0 (by omega), get_at0 (by omega)]; rfl)
    ((List.replicate d (0 : ℝ)).set 0 (-400 * at0 x 0 * (at0 x 1 - at0 x 0 * at0 x 0) - 2 * (1 - at0 x 0))) (by simp; omega)
  have hwl' : w.length = d := by simpa using hwl
  refine ⟨w.set (d - 1) (200 * (at0 x (d - 1) - at0 x (d - 2) * at0 x (d - 2))), ?_, ?_, ?_, ?_⟩
  · unfold rosenGradient
    rw [hf, Outcome.bind_ok, Outcome.set_of_lt (by simp; omega), Outcome.bind_ok, hw, Outcome.bind_ok, hl, Outcome.bind_ok,
      Outcome.set_of_lt (by omega)]
  · rw [List.length_set, hwl', (C22_dense_gradient 1 d).2.2, one_mul]
  · intro k r c v hp hv
    obtain ⟨rfl, rfl, hk⟩ := denseGradient_one_get hp
    refine isPartial_of _ (by omega) (fun t => ⟨_, rosenFitness_ok (by simpa using hx), rfl⟩) ?_
    refine (deriv_rosenSum (by omega) (d - 1)).congr_deriv ?_
    rw [List.getElem?_set, hwi, List.getElem?_set] at hv
    by_cases h1 : d - 1 = c
    · rw [if_pos h1, if_pos (by omega)] at hv
      rw [if_neg (by omega), if_pos (by omega), ← Option.some.inj hv, show c - 1 + 1 = c by omega, h1, show d - 2 = c - 1 by omega]
      ring
    · rw [if_neg h1] at hv
      by_cases h2 : c = 0
      · subst h2
        rw [if_neg (by omega), if_pos rfl, if_pos (by simp; omega)] at hv
        rw [if_pos (by omega), if_neg (by omega), ← Option.some.inj hv]
        ring
      · rw [if_pos (by omega)] at hv
        rw [if_pos (by omega), if_pos (by omega), ← Option.some.inj hv, show c - 1 + 1 = c by omega]
        ring
  · intro r c h1 h2 h3
    exact absurd ((C22_dense_gradient 1 d).2.1 (r, c) h1 h2) h3

theorem deriv_rastSum {x : List ℝ} {c : Nat} (hc : c < x.length) :
    HasDerivAt (fun t => (∑ i ∈ range x.length, (at0 (x.set c t) i * at0 (x.set c t) i - 10 * Real.cos (2 * Real.pi * at0 (x.set c t) i))) +
      10 * (x.length : ℝ)) (2 * at0 x c + 10 * (2 * Real.pi) * Real.sin (2 * Real.pi * at0 x c)) (at0 x c) := by
  have := sum_delta x.length c (fun i => 2 * at0 x i + 10 * (2 * Real.pi) * Real.sin (2 * Real.pi * at0 x i))
  rw [if_pos hc] at this
  rw [← this]
  refine HasDerivAt.add_const _ (HasDerivAt.fun_sum (fun i _ => ?_))
  have h1 := deriv_at0 hc i (at0 x c)
  refine ((h1.mul h1).sub (((h1.const_mul (2 * Real.pi)).cos).const_mul 10)).congr_deriv ?_
  simp only [at0_set_self hc]
  ring

theorem rast_partial {x : List ℝ} {c : Nat} (hc : c < x.length) :
    IsPartial rastFitness 0 c x (2 * at0 x c + 10 * (2 * Real.pi) * Real.sin (2 * Real.pi * at0 x c)) := by
  refine isPartial_of _ hc (fun t => ⟨_, rastFitness_ok _, rfl⟩) ?_
  simp only [List.length_set]
  exact deriv_rastSum hc

/-- C80 (rastrigin, minlp_rastrigin). The gradient, in the dense format, is that of the fitness. -/
theorem C80_rastrigin_gradient (d : Nat) : GradientOf rastFitness rastGradient 1 d (denseGradient 1 d) := by
  refine ⟨(C22_dense_gradient 1 d).1, fun x hx => ⟨⟨_, rastFitness_ok x, rfl⟩, ?_⟩⟩
  obtain ⟨w, hw, hwl, hwi⟩ := fillLoop_ok (a := 0) (n := x.length) (f := rastGrad1 x)
    (g := fun i => 2 * at0 x i + 10 * (2 * Real.pi) * Real.sin (2 * Real.pi * at0 x i))
    (fun i h1 h2 => by rw [rastGrad1, get_at0 (by omega)]; rfl) (List.replicate x.length 0) (by simp)
  refine ⟨w, hw, ?_, ?_, ?_⟩
  · rw [hwl, (C22_dense_gradient 1 d).2.2, List.length_replicate, hx, one_mul]
  · intro k r c v hp hv
    obtain ⟨rfl, rfl, hk⟩ := denseGradient_one_get hp
    rw [hwi, if_pos (by omega)] at hv
    rw [← Option.some.inj hv]
    exact rast_partial (by omega)
  · intro r c h1 h2 h3
    exact absurd ((C22_dense_gradient 1 d).2.1 (r, c) h1 h2) h3

theorem rast_partial2 {x : List ℝ} {c d : Nat} (hc : c < x.length) (hd : d < x.length) :
    IsPartial2 rastFitness 0 c d x ((2 + 10 * (2 * Real.pi) * (2 * Real.pi) * Real.cos (2 * Real.pi * at0 x c)) * delta d c) := by
  refine ⟨_, at0 x d, some_at0 hd, fun t => rast_partial (by simpa using hc), ?_⟩
  have h1 := deriv_at0 hd c (at0 x d)
  refine ((h1.const_mul 2).add (((h1.const_mul (2 * Real.pi)).sin).const_mul (10 * (2 * Real.pi)))).congr_deriv ?_
  simp only [at0_set_self hd]
  ring

/-- C80 (rastrigin, minlp_rastrigin). The Hessian, with the diagonal as its sparsity pattern, is that of the fitness. -/
theorem C80_rastrigin_hessian (d : Nat) : HessiansOf rastFitness rastHessians 1 d (rastHessSparsity d) := by
  refine ⟨rfl, ?_, fun x hx => ?_⟩
  · intro pat hp
    rw [rastHessSparsity, List.mem_singleton] at hp
    subst hp
    refine ⟨?_, ?_⟩
    · intro p hp
      obtain ⟨i, hi, rfl⟩ := List.mem_map.mp hp
      exact ⟨List.mem_range.mp hi, le_rfl⟩
    · rw [List.pairwise_map]
      exact List.pairwise_lt_range.imp (fun {a b} h => Or.inl h)
  obtain ⟨w, hw, hwl, hwi⟩ := fillLoop_ok (a := 0) (n := x.length) (f := rastHess1 x)
    (g := fun i => 2 + 10 * (2 * Real.pi) * (2 * Real.pi) * Real.cos (2 * Real.pi * at0 x i))
    (fun i h1 h2 => by rw [rastHess1, get_at0 (by omega)]; rfl) (List.replicate x.length 0) (by simp)
  refine ⟨[w], by rw [rastHessians, hw]; rfl, rfl, ?_⟩
  intro r pat h hp hh
  have hr : r = 0 := by
    by_contra h0
    rw [List.getElem?_eq_none (by simp; omega)] at hh; cases hh
  subst hr
  obtain rfl := Option.some.inj hp
  obtain rfl := Option.some.inj hh
  refine ⟨by simp [hwl, hx], ?_, ?_⟩
  · intro k c e v hk hv
    have hkl : k < d := by
      by_contra h0
      rw [List.getElem?_eq_none (by simpa using h0)] at hk; cases hk
    rw [List.getElem?_map, List.getElem?_range hkl] at hk
    simp only [Option.map_some, Option.some.injEq, Prod.mk.injEq] at hk
    obtain ⟨rfl, rfl⟩ := hk
    rw [hwi, if_pos (by omega)] at hv
    have := rast_partial2 (x := x) (c := k) (d := k) (by omega) (by omega)
    rw [delta, if_pos rfl, mul_one] at this
    rw [← Option.some.inj hv]; exact this
  · intro c e h1 h2 h3
    have hne : c ≠ e := by
      rintro rfl
      exact h3 (List.mem_map.mpr ⟨c, List.mem_range.mpr h1, rfl⟩)
    have := rast_partial2 (x := x) (c := c) (d := e) (by omega) (by omega)
    rw [delta, if_neg hne, mul_zero] at this
    exact this

/-! ### luksan_vlcek1 -/

/-- the part of the derivative of the objective in variable `i` which comes from the term `i` -/
def lukA (x : List ℝ) (i : Nat) : ℝ := 400 * at0 x i * (at0 x i * at0 x i - at0 x (i + 1)) + 2 * (at0 x i - 1)

/-- the part which comes from the term before -/
def lukB (x : List ℝ) (i : Nat) : ℝ := if 1 ≤ i then -200 * (at0 x (i - 1) * at0 x (i - 1) - at0 x i) else 0

theorem luksanObj_loop (x g0 : List ℝ) (hx : x.length ≤ g0.length) (h0 : g0[0]? = some 0) (m : Nat) (hm : m + 1 ≤ x.length) :
    ∃ g, (List.range m).foldlM (luksanObjGrad x) g0 = .ok g ∧ g.length = g0.length ∧
      ∀ i : Nat, g[i]? = if i < m then some (lukA x i + lukB x i) else if i = m then some (lukB x i) else g0[i]? := by
  induction m with
  | zero =>
    refine ⟨g0, by simp, rfl, fun i => ?_⟩
    rw [if_neg (by omega)]
    split
    · rename_i h; subst h; rw [h0]; simp [lukB]
    · rfl
  | succ m ih =>
    obtain ⟨g, hg, hl, hi⟩ := ih (by omega)
    have hgm : Outcome.get g m = .ok (lukB x m) := by
      rw [Outcome.get_eq_ok_iff, hi, if_neg (by omega), if_pos rfl]
    refine ⟨(g.set m (lukB x m + lukA x m)).set (m + 1) (lukB x (m + 1)), ?_, by simp [hl], ?_⟩
    · rw [List.range_succ, List.foldlM_append, hg]
      simp only [Outcome.bind_ok, List.foldlM_cons, List.foldlM_nil, luksanObjGrad, get_at0 (show m < x.length by omega),
        get_at0 (show m + 1 < x.length by omega), hgm]
      rw [Outcome.set_of_lt (by omega), Outcome.bind_ok, Outcome.set_of_lt (by simp; omega)]
      simp [lukB, lukA]
    · intro i
      rw [List.getElem?_set, List.getElem?_set, hi, List.length_set]
      by_cases h1 : m + 1 = i
      · subst h1
        rw [if_pos rfl, if_pos (by omega), if_neg (by omega), if_pos rfl]
      · rw [if_neg h1]
        by_cases h2 : m = i
        · subst h2
          rw [if_pos rfl, if_pos (by omega), if_pos (by omega), add_comm]
        · rw [if_neg h2]
          by_cases h3 : i < m
          · rw [if_pos h3, if_pos (by omega)]
          · rw [if_neg h3, if_neg (by omega), if_neg (by omega), if_neg (by omega)]

/-- the three derivatives of a constraint -/
noncomputable def lukP (x : List ℝ) (i s : Nat) : ℝ :=
  match s with
  | 0 => -(1 + at0 x i) * Real.exp (at0 x i - at0 x (i + 1))
  | 1 => 9 * at0 x (i + 1) * at0 x (i + 1) + Real.cos (at0 x (i + 1) - at0 x (i + 2)) * Real.sin (at0 x (i + 1) + at0 x (i + 2))
      + Real.sin (at0 x (i + 1) - at0 x (i + 2)) * Real.cos (at0 x (i + 1) + at0 x (i + 2)) + 4
      + at0 x i * Real.exp (at0 x i - at0 x (i + 1))
  | _ => 2 - Real.cos (at0 x (i + 1) - at0 x (i + 2)) * Real.sin (at0 x (i + 1) + at0 x (i + 2))
      + Real.sin (at0 x (i + 1) - at0 x (i + 2)) * Real.cos (at0 x (i + 1) + at0 x (i + 2))

theorem luksanCon_loop (x g0 : List ℝ) (n m : Nat) (hx : m + 2 ≤ x.length) (hg : n + 3 * m ≤ g0.length) :
    ∃ g, (List.range m).foldlM (luksanConGrad x n) g0 = .ok g ∧ g.length = g0.length ∧
      (∀ i : Nat, i < n → g[i]? = g0[i]?) ∧
      ∀ j s : Nat, j < m → s < 3 → g[n + 3 * j + s]? = some (lukP x j s) := by
  induction m with
  | zero => exact ⟨g0, by simp, rfl, fun i _ => rfl, fun j s h => by omega⟩
  | succ m ih =>
    obtain ⟨g, hgo, hl, hi, hj⟩ := ih (by omega) (by omega)
    refine ⟨((g.set (n + 3 * m) (lukP x m 0)).set (n + 1 + 3 * m) (lukP x m 1)).set (n + 2 + 3 * m) (lukP x m 2), ?_, by simp [hl], ?_, ?_⟩
    · rw [List.range_succ, List.foldlM_append, hgo]
      simp only [Outcome.bind_ok, List.foldlM_cons, List.foldlM_nil, luksanConGrad, get_at0 (show m < x.length by omega),
        get_at0 (show m + 1 < x.length by omega), get_at0 (show m + 2 < x.length by omega)]
      rw [Outcome.set_of_lt (by omega), Outcome.bind_ok, Outcome.set_of_lt (by simp; omega), Outcome.bind_ok,
        Outcome.set_of_lt (by simp; omega)]
      rfl
    · intro i h
      rw [List.getElem?_set, List.getElem?_set, List.getElem?_set, if_neg (by omega), if_neg (by omega), if_neg (by omega), hi i h]
    · intro j s h1 h2
      rw [List.getElem?_set, List.getElem?_set, List.getElem?_set]
      simp only [List.length_set]
      by_cases h3 : j < m
      · rw [if_neg (by omega), if_neg (by omega), if_neg (by omega), hj j s h3 h2]
      · obtain rfl : j = m := by omega
        interval_cases s
        · rw [if_neg (by omega), if_neg (by omega), if_pos (by omega), if_pos (by omega)]
        · rw [if_neg (by omega), if_pos (by omega), if_pos (by omega)]
        · rw [if_pos (by omega), if_pos (by omega)]

theorem luk_pattern_tail (m k : Nat) :
    ((List.range m).flatMap (fun i => [(i + 1, i), (i + 1, i + 1), (i + 1, i + 2)]))[k]? =
      if k < 3 * m then some (k / 3 + 1, k / 3 + k % 3) else none := by
  induction m with
  | zero => simp
  | succ m ih =>
    have hl : ((List.range m).flatMap (fun i => [(i + 1, i), (i + 1, i + 1), (i + 1, i + 2)])).length = 3 * m := by
      simp [List.length_flatMap, mul_comm]
    rw [List.range_succ, List.flatMap_append, List.getElem?_append, ih, hl]
    by_cases h : k < 3 * m
    · rw [if_pos h, if_pos h, if_pos (by omega)]
    · rw [if_neg h]
      by_cases h2 : k < 3 * (m + 1)
      · rw [if_pos h2]
        obtain ⟨s, hs, hk⟩ : ∃ s, s < 3 ∧ k = 3 * m + s := ⟨k - 3 * m, by omega, by omega⟩
        subst hk
        rw [show 3 * m + s - 3 * m = s by omega, show (3 * m + s) / 3 = m by omega, show (3 * m + s) % 3 = s by omega]
        interval_cases s <;> rfl
      · rw [if_neg h2, List.getElem?_eq_none]
        simp; omega

theorem luk_pattern (d k : Nat) :
    (luksanSparsity d)[k]? = if k < d then some (0, k)
      else if k < d + 3 * (d - 2) then some ((k - d) / 3 + 1, (k - d) / 3 + (k - d) % 3) else none := by
  rw [luksanSparsity, List.getElem?_append, luk_pattern_tail]
  simp only [List.length_map, List.length_range, List.getElem?_map]
  by_cases h : k < d
  · rw [if_pos h, if_pos h, List.getElem?_range h]; rfl
  · rw [if_neg h, if_neg h]
    by_cases h2 : k - d < 3 * (d - 2)
    · rw [if_pos h2, if_pos (by omega)]
    · rw [if_neg h2, if_neg (by omega)]

theorem luk_pattern_lex (d : Nat) (hd : 3 ≤ d) : GradPattern (d - 1) d (luksanSparsity d) := by
  constructor
  · intro p hp
    obtain ⟨k, hk⟩ := List.mem_iff_getElem?.mp hp
    rw [luk_pattern] at hk
    split at hk
    · obtain rfl := Option.some.inj hk
      exact ⟨by omega, by assumption⟩
    · split at hk
      · obtain rfl := Option.some.inj hk
        refine ⟨?_, ?_⟩
        · show (k - d) / 3 + 1 < d - 1
          omega
        · show (k - d) / 3 + (k - d) % 3 < d
          omega
      · cases hk
  · rw [List.pairwise_iff_getElem]
    intro i j hi hj hij
    have h1 := luk_pattern d i
    have h2 := luk_pattern d j
    rw [List.getElem?_eq_getElem hi] at h1
    rw [List.getElem?_eq_getElem hj] at h2
    split at h1
    · split at h2
      · rw [Option.some.inj h1, Option.some.inj h2]; exact Or.inr ⟨rfl, hij⟩
      · split at h2
        · rw [Option.some.inj h1, Option.some.inj h2]; exact Or.inl (Nat.succ_pos _)
        · cases h2
    · split at h1
      · rw [if_neg (by omega)] at h2
        split at h2
        · rw [Option.some.inj h1, Option.some.inj h2]
          unfold LexLt
          simp only
          omega
        · cases h2
      · cases h1

theorem deriv_luksanK {x : List ℝ} {c : Nat} (hc : c < x.length) (j : Nat) :
    HasDerivAt (fun t => luksanK (at0 (x.set c t) j) (at0 (x.set c t) (j + 1)) (at0 (x.set c t) (j + 2)))
      (lukP x j 0 * delta c j + lukP x j 1 * delta c (j + 1) + lukP x j 2 * delta c (j + 2)) (at0 x c) := by
  have ha := deriv_at0 hc j (at0 x c)
  have hb := deriv_at0 hc (j + 1) (at0 x c)
  have he := deriv_at0 hc (j + 2) (at0 x c)
  have h := (((((((hb.pow 3).const_mul 3).add (he.const_mul 2)).sub_const 5).add ((hb.sub he).sin.mul (hb.add he).sin)).add
    (hb.const_mul 4)).sub (ha.mul (ha.sub hb).exp)).sub_const 3
  unfold luksanK
  refine h.congr_deriv ?_
  simp only [at0_set_self hc, Pi.sub_apply, Pi.add_apply, lukP]
  ring

theorem luk_partial_obj {x : List ℝ} {c : Nat} (hx : 2 ≤ x.length) (hc : c < x.length) :
    IsPartial luksanFitness 0 c x ((if c < x.length - 1 then lukA x c else 0) + lukB x c) := by
  refine isPartial_of _ hc (fun t => ⟨_, luksanFitness_ok _ (by simpa using hx), rfl⟩) ?_
  simp only [List.length_set]
  refine (deriv_rosenSum hc (x.length - 1)).congr_deriv ?_
  rw [lukB, lukA]
  congr 1
  by_cases h : 1 ≤ c
  · rw [if_pos (by omega), if_pos h, show c - 1 + 1 = c by omega]
  · rw [if_neg (by omega), if_neg h]

theorem luk_partial_con {x : List ℝ} {c j : Nat} (hx : 2 ≤ x.length) (hc : c < x.length) (hj : j < x.length - 2) :
    IsPartial luksanFitness (j + 1) c x (lukP x j 0 * delta c j + lukP x j 1 * delta c (j + 1) + lukP x j 2 * delta c (j + 2)) := by
  refine isPartial_of (fun t => luksanK (at0 (x.set c t) j) (at0 (x.set c t) (j + 1)) (at0 (x.set c t) (j + 2))) hc
    (fun t => ⟨_, luksanFitness_ok _ (by simpa using hx), ?_⟩) (deriv_luksanK hc j)
  rw [List.getElem?_cons_succ, List.getElem?_map, List.getElem?_range (by simpa using hj)]
  rfl

/-- C80 (luksan_vlcek1). The gradient, in the sparse format of `gradient_sparsity()`, is that of the fitness: the objective and the
`dim - 2` constraints. -/
theorem C80_luksan_vlcek1 (dim d : Nat) (h : luksanCtor dim = .ok d) :
    GradientOf luksanFitness luksanGradient (d - 1) d (luksanSparsity d) := by
  have hd : 3 ≤ d := by
    unfold luksanCtor at h; split at h
    · cases h
    · cases h; omega
  refine ⟨luk_pattern_lex d hd, fun x hx => ⟨⟨_, luksanFitness_ok x (by omega), by simp; omega⟩, ?_⟩⟩
  obtain ⟨g, hg, hgl, hgi⟩ := luksanObj_loop x (List.replicate (x.length + 3 * (x.length - 2)) 0) (by simp)
    (by rw [List.getElem?_replicate, if_pos (by omega)]) (x.length - 1) (by omega)
  rw [List.length_replicate] at hgl
  obtain ⟨w, hw, hwl, hwi, hwj⟩ := luksanCon_loop x g x.length (x.length - 2) (by omega) (by omega)
  have hpl : (luksanSparsity d).length = d + 3 * (d - 2) := by
    simp [luksanSparsity, List.length_flatMap, mul_comm]
  refine ⟨w, ?_, by rw [hwl, hgl, hpl, hx], ?_, ?_⟩
  · unfold luksanGradient
    simp only [hg, Outcome.bind_ok]
    exact hw
  · intro k r c v hp hv
    rw [luk_pattern] at hp
    split at hp
    · rename_i hk
      simp only [Option.some.injEq, Prod.mk.injEq] at hp
      obtain ⟨rfl, rfl⟩ := hp
      rw [hwi k (by omega), hgi] at hv
      have := luk_partial_obj (x := x) (c := k) (by omega) (by omega)
      by_cases h1 : k < x.length - 1
      · rw [if_pos h1] at hv this
        rw [← Option.some.inj hv]; exact this
      · rw [if_neg h1] at hv this
        rw [if_pos (by omega)] at hv
        rw [← Option.some.inj hv]; rwa [zero_add] at this
    · split at hp
      · rename_i hk1 hk2
        simp only [Option.some.injEq, Prod.mk.injEq] at hp
        obtain ⟨rfl, rfl⟩ := hp
        obtain ⟨j, s, hs, rfl⟩ : ∃ j s, s < 3 ∧ k = d + 3 * j + s := ⟨(k - d) / 3, (k - d) % 3, by omega, by omega⟩
        rw [show d + 3 * j + s - d = 3 * j + s by omega, show (3 * j + s) / 3 = j by omega, show (3 * j + s) % 3 = s by omega] at *
        have h1 := hwj j s (by omega) hs
        rw [hx] at h1
        rw [h1] at hv
        rw [← Option.some.inj hv]
        have := luk_partial_con (x := x) (c := j + s) (j := j) (by omega) (by omega) (by omega)
        interval_cases s <;> simpa [delta] using this
      · cases hp
  · intro r c h1 h2 h3
    have hne : ∀ k : Nat, (luksanSparsity d)[k]? ≠ some (r, c) := fun k hk => h3 (List.mem_of_getElem? hk)
    rcases Nat.eq_zero_or_pos r with rfl | hr
    · have := hne c
      rw [luk_pattern, if_pos h2] at this
      exact absurd rfl this
    · obtain ⟨j, rfl⟩ : ∃ j, r = j + 1 := ⟨r - 1, by omega⟩
      have hn : ∀ s, s < 3 → c ≠ j + s := by
        intro s hs hcs
        have := hne (d + (3 * j + s))
        rw [luk_pattern, if_neg (by omega), if_pos (by omega), show d + (3 * j + s) - d = 3 * j + s by omega,
          show (3 * j + s) / 3 = j by omega, show (3 * j + s) % 3 = s by omega, hcs] at this
        exact this rfl
      have := luk_partial_con (x := x) (c := c) (j := j) (by omega) (by omega) (by omega)
      have e0 : delta c j = 0 := if_neg (Ne.symm (hn 0 (by omega)))
      have e1 : delta c (j + 1) = 0 := if_neg (Ne.symm (hn 1 (by omega)))
      have e2 : delta c (j + 2) = 0 := if_neg (Ne.symm (hn 2 (by omega)))
      rw [e0, e1, e2] at this
      simpa using this

/-! ### hock_schittkowski_71 -/

theorem hsFitness_ok {x : List ℝ} (hx : x.length = 4) :
    hsFitness x = .ok [at0 x 0 * at0 x 3 * (at0 x 0 + at0 x 1 + at0 x 2) + at0 x 2,
      at0 x 0 * at0 x 0 + at0 x 1 * at0 x 1 + at0 x 2 * at0 x 2 + at0 x 3 * at0 x 3 - 40,
      25 - at0 x 0 * at0 x 1 * at0 x 2 * at0 x 3] := by
  rw [hsFitness, get_at0 (by omega), get_at0 (by omega), get_at0 (by omega), get_at0 (by omega)]; rfl

/-- the derivative of component `r` in variable `c` -/
def hsP (r c : Nat) (x : List ℝ) : ℝ :=
  match r with
  | 0 => (at0 x 0 * at0 x 3 + at0 x 3 * (at0 x 0 + at0 x 1 + at0 x 2)) * delta c 0 + at0 x 0 * at0 x 3 * delta c 1
      + (at0 x 0 * at0 x 3 + 1) * delta c 2 + at0 x 0 * (at0 x 0 + at0 x 1 + at0 x 2) * delta c 3
  | 1 => 2 * at0 x 0 * delta c 0 + 2 * at0 x 1 * delta c 1 + 2 * at0 x 2 * delta c 2 + 2 * at0 x 3 * delta c 3
  | _ => -at0 x 1 * at0 x 2 * at0 x 3 * delta c 0 + -at0 x 0 * at0 x 2 * at0 x 3 * delta c 1 + -at0 x 0 * at0 x 1 * at0 x 3 * delta c 2
      + -at0 x 0 * at0 x 1 * at0 x 2 * delta c 3

theorem hs_partial {x : List ℝ} (hx : x.length = 4) {r c : Nat} (hr : r < 3) (hc : c < 4) : IsPartial hsFitness r c x (hsP r c x) := by
  have hc' : c < x.length := by omega
  have h0 := deriv_at0 hc' 0 (at0 x c)
  have h1 := deriv_at0 hc' 1 (at0 x c)
  have h2 := deriv_at0 hc' 2 (at0 x c)
  have h3 := deriv_at0 hc' 3 (at0 x c)
  interval_cases r
  · refine isPartial_of _ hc' (fun t => ⟨_, hsFitness_ok (by simpa using hx), rfl⟩) ?_
    refine (((h0.mul h3).mul ((h0.add h1).add h2)).add h2).congr_deriv ?_
    simp only [at0_set_self hc', Pi.add_apply, Pi.mul_apply, hsP]
    ring
  · refine isPartial_of _ hc' (fun t => ⟨_, hsFitness_ok (by simpa using hx), rfl⟩) ?_
    refine (((((h0.mul h0).add (h1.mul h1)).add (h2.mul h2)).add (h3.mul h3)).sub_const 40).congr_deriv ?_
    simp only [at0_set_self hc', hsP]
    ring
  · refine isPartial_of _ hc' (fun t => ⟨_, hsFitness_ok (by simpa using hx), rfl⟩) ?_
    refine ((((h0.mul h1).mul h2).mul h3).const_sub 25).congr_deriv ?_
    simp only [at0_set_self hc', Pi.mul_apply, hsP]
    ring

/-- C80 (hock_schittkowski_71). The gradient, in the dense format, is that of the fitness. -/
theorem C80_hs71_gradient : GradientOf hsFitness hsGradient 3 4 (denseGradient 3 4) := by
  refine ⟨(C22_dense_gradient 3 4).1, fun x hx => ⟨⟨_, hsFitness_ok hx, rfl⟩, ?_⟩⟩
  have hg : hsGradient x = .ok [at0 x 0 * at0 x 3 + at0 x 3 * (at0 x 0 + at0 x 1 + at0 x 2), at0 x 0 * at0 x 3, at0 x 0 * at0 x 3 + 1,
      at0 x 0 * (at0 x 0 + at0 x 1 + at0 x 2), 2 * at0 x 0, 2 * at0 x 1, 2 * at0 x 2, 2 * at0 x 3, -at0 x 1 * at0 x 2 * at0 x 3,
      -at0 x 0 * at0 x 2 * at0 x 3, -at0 x 0 * at0 x 1 * at0 x 3, -at0 x 0 * at0 x 1 * at0 x 2] := by
    rw [hsGradient, get_at0 (by omega), get_at0 (by omega), get_at0 (by omega), get_at0 (by omega)]; rfl
  refine ⟨_, hg, by rw [(C22_dense_gradient 3 4).2.2]; rfl, ?_, ?_⟩
  · intro k r c v hp hv
    have hk : k < 12 := by
      by_contra h
      rw [List.getElem?_eq_none (by simp; omega)] at hv; cases hv
    obtain ⟨hr, hc⟩ := (C22_dense_gradient 3 4).1.1 (r, c) (List.mem_of_getElem? hp)
    have := hs_partial hx hr hc
    have hd : denseGradient 3 4 = [(0, 0), (0, 1), (0, 2), (0, 3), (1, 0), (1, 1), (1, 2), (1, 3), (2, 0), (2, 1), (2, 2), (2, 3)] := by
      decide
    rw [hd] at hp
    interval_cases k <;> simp at hp hv <;> obtain ⟨rfl, rfl⟩ := hp <;> subst hv <;> simpa [hsP, delta] using this
  · intro r c h1 h2 h3
    exact absurd ((C22_dense_gradient 3 4).2.1 (r, c) h1 h2) h3

/-- the second derivatives of component `r` -/
def hsQ (r c d : Nat) (x : List ℝ) : ℝ :=
  match r with
  | 0 => (2 * at0 x 3 * delta d 0 + at0 x 3 * delta d 1 + at0 x 3 * delta d 2 + (2 * at0 x 0 + at0 x 1 + at0 x 2) * delta d 3) * delta c 0
      + (at0 x 3 * delta d 0 + at0 x 0 * delta d 3) * delta c 1 + (at0 x 3 * delta d 0 + at0 x 0 * delta d 3) * delta c 2
      + ((2 * at0 x 0 + at0 x 1 + at0 x 2) * delta d 0 + at0 x 0 * delta d 1 + at0 x 0 * delta d 2) * delta c 3
  | 1 => 2 * delta d 0 * delta c 0 + 2 * delta d 1 * delta c 1 + 2 * delta d 2 * delta c 2 + 2 * delta d 3 * delta c 3
  | _ => -(at0 x 2 * at0 x 3 * delta d 1 + at0 x 1 * at0 x 3 * delta d 2 + at0 x 1 * at0 x 2 * delta d 3) * delta c 0
      + -(at0 x 2 * at0 x 3 * delta d 0 + at0 x 0 * at0 x 3 * delta d 2 + at0 x 0 * at0 x 2 * delta d 3) * delta c 1
      + -(at0 x 1 * at0 x 3 * delta d 0 + at0 x 0 * at0 x 3 * delta d 1 + at0 x 0 * at0 x 1 * delta d 3) * delta c 2
      + -(at0 x 1 * at0 x 2 * delta d 0 + at0 x 0 * at0 x 2 * delta d 1 + at0 x 0 * at0 x 1 * delta d 2) * delta c 3

theorem hs_partial2 {x : List ℝ} (hx : x.length = 4) {r c d : Nat} (hr : r < 3) (hc : c < 4) (hd : d < 4) :
    IsPartial2 hsFitness r c d x (hsQ r c d x) := by
  have hd' : d < x.length := by omega
  refine ⟨fun t => hsP r c (x.set d t), at0 x d, some_at0 hd', fun t => hs_partial (by simpa using hx) hr hc, ?_⟩
  have h0 := deriv_at0 hd' 0 (at0 x d)
  have h1 := deriv_at0 hd' 1 (at0 x d)
  have h2 := deriv_at0 hd' 2 (at0 x d)
  have h3 := deriv_at0 hd' 3 (at0 x d)
  have hs := (h0.add h1).add h2
  interval_cases r
  · refine (((((h0.mul h3).add (h3.mul hs)).mul_const (delta c 0)).add ((h0.mul h3).mul_const (delta c 1))).add
      (((h0.mul h3).add_const 1).mul_const (delta c 2))).add ((h0.mul hs).mul_const (delta c 3)) |>.congr_deriv ?_
    simp only [at0_set_self hd', Pi.add_apply, hsQ]
    ring
  · refine (((((h0.const_mul 2).mul_const (delta c 0)).add ((h1.const_mul 2).mul_const (delta c 1))).add
      ((h2.const_mul 2).mul_const (delta c 2))).add ((h3.const_mul 2).mul_const (delta c 3))).congr_deriv ?_
    simp only [hsQ]
  · refine ((((((h1.neg).mul h2).mul h3).mul_const (delta c 0)).add ((((h0.neg).mul h2).mul h3).mul_const (delta c 1))).add
      ((((h0.neg).mul h1).mul h3).mul_const (delta c 2))).add ((((h0.neg).mul h1).mul h2).mul_const (delta c 3)) |>.congr_deriv ?_
    simp only [at0_set_self hd', Pi.neg_apply, Pi.mul_apply, hsQ]
    ring

/-- C80 (hock_schittkowski_71). The Hessians, in the sparse format of `hessians_sparsity()`, are those of the fitness. -/
theorem C80_hs71_hessians : HessiansOf hsFitness hsHessians 3 4 hsHessSparsity := by
  refine ⟨rfl, ?_, fun x hx => ?_⟩
  · unfold hsHessSparsity HessPattern LexLt
    decide
  have hh : hsHessians x = .ok [[2 * at0 x 3, at0 x 3, at0 x 3, 2 * at0 x 0 + at0 x 1 + at0 x 2, at0 x 0, at0 x 0], [2, 2, 2, 2],
      [-at0 x 2 * at0 x 3, -at0 x 1 * at0 x 3, -at0 x 0 * at0 x 3, -at0 x 1 * at0 x 2, -at0 x 0 * at0 x 2, -at0 x 0 * at0 x 1]] := by
    rw [hsHessians, get_at0 (by omega), get_at0 (by omega), get_at0 (by omega), get_at0 (by omega)]; rfl
  refine ⟨_, hh, rfl, ?_⟩
  intro r pat h hp hv
  have hr : r < 3 := by
    by_contra h
    rw [List.getElem?_eq_none (by simp; omega)] at hv; cases hv
  interval_cases r
  all_goals
    simp only [hsHessSparsity, List.getElem?_cons_zero, List.getElem?_cons_succ, Option.some.injEq] at hp hv
    subst hp
    subst hv
    refine ⟨rfl, ?_, ?_⟩
  · intro k c d v hk hv
    have hkl : k < 6 := by
      by_contra h
      rw [List.getElem?_eq_none (by simp; omega)] at hv; cases hv
    have key : c < 4 → d < 4 → IsPartial2 hsFitness 0 c d x (hsQ 0 c d x) := hs_partial2 hx (by decide)
    interval_cases k <;> simp at hk hv <;> obtain ⟨rfl, rfl⟩ := hk <;> subst hv <;> simpa [hsQ, delta] using key (by decide) (by decide)
  · intro c d h1 h2 h3
    have key : d < 4 → IsPartial2 hsFitness 0 c d x (hsQ 0 c d x) := hs_partial2 hx (by decide) h1
    interval_cases c <;> interval_cases d <;> first | (exfalso; revert h3; decide) | simpa [hsQ, delta] using key (by decide)
  · intro k c d v hk hv
    have hkl : k < 4 := by
      by_contra h
      rw [List.getElem?_eq_none (by simp; omega)] at hv; cases hv
    have key : c < 4 → d < 4 → IsPartial2 hsFitness 1 c d x (hsQ 1 c d x) := hs_partial2 hx (by decide)
    interval_cases k <;> simp at hk hv <;> obtain ⟨rfl, rfl⟩ := hk <;> subst hv <;> simpa [hsQ, delta] using key (by decide) (by decide)
  · intro c d h1 h2 h3
    have key : d < 4 → IsPartial2 hsFitness 1 c d x (hsQ 1 c d x) := hs_partial2 hx (by decide) h1
    interval_cases c <;> interval_cases d <;> first | (exfalso; revert h3; decide) | simpa [hsQ, delta] using key (by decide)
  · intro k c d v hk hv
    have hkl : k < 6 := by
      by_contra h
      rw [List.getElem?_eq_none (by simp; omega)] at hv; cases hv
    have key : c < 4 → d < 4 → IsPartial2 hsFitness 2 c d x (hsQ 2 c d x) := hs_partial2 hx (by decide)
    interval_cases k <;> simp at hk hv <;> obtain ⟨rfl, rfl⟩ := hk <;> subst hv <;> simpa [hsQ, delta] using key (by decide) (by decide)
  · intro c d h1 h2 h3
    have key : d < 4 → IsPartial2 hsFitness 2 c d x (hsQ 2 c d x) := hs_partial2 hx (by decide) h1
    interval_cases c <;> interval_cases d <;> first | (exfalso; revert h3; decide) | simpa [hsQ, delta] using key (by decide)

/-! Examples: the hypotheses are met, and the predicates tell a right gradient from a wrong one. -/

example : rosenCtor 2 = .ok 2 ∧ luksanCtor 3 = .ok 3 ∧ rosenCtor 1 = .throws .invalidArgument ∧ luksanCtor 2 = .throws .invalidArgument :=
  ⟨rfl, rfl, rfl, rfl⟩

example : GradientOf (rosenFitness 3) (rosenGradient 3) 1 3 (denseGradient 1 3) := C80_rosenbrock 3 3 rfl

example : GradientOf luksanFitness luksanGradient 3 4 (luksanSparsity 4) := C80_luksan_vlcek1 4 4 rfl

example : ¬ GradientOf (rosenFitness 2) (fun _ => .ok [0, 0]) 1 2 (denseGradient 1 2) := by
  rintro ⟨-, h⟩
  obtain ⟨-, g, hg, -, h1, -⟩ := h [0, 0] rfl
  have hw : IsPartial (rosenFitness 2) 0 0 [0, 0] 0 := h1 0 0 0 0 rfl (by cases hg; rfl)
  obtain ⟨-, h⟩ := C80_rosenbrock 2 2 rfl
  obtain ⟨-, g', hg', -, h2, -⟩ := h [0, 0] rfl
  have hr : IsPartial (rosenFitness 2) 0 0 [0, 0] (-2) := by
    refine h2 0 0 0 (-2) rfl ?_
    have e : rosenGradient 2 [0, 0] = .ok [-400 * 0 * (0 - 0 * 0) - 2 * (1 - 0), 200 * (0 - 0 * 0)] := rfl
    rw [e] at hg'
    cases hg'
    norm_num
  obtain ⟨φ, a, ha, hφ, hd⟩ := hw
  obtain ⟨ψ, b, hb, hψ, hd'⟩ := hr
  have e1 : φ = ψ := by
    funext t
    obtain ⟨y, hy, hy'⟩ := hφ t
    obtain ⟨z, hz, hz'⟩ := hψ t
    rw [hy] at hz; cases hz
    rw [hy'] at hz'; exact Option.some.inj hz'
  rw [ha] at hb; cases hb
  subst e1
  have := hd.unique hd'
  norm_num at this

end Verif.Props
