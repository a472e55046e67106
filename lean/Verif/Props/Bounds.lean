import Verif.Props.Random
import Mathlib.Algebra.Order.Archimedean.Basic

/-!
# C48: bound repair
-/

set_option autoImplicit false

namespace Verif.Props

open Verif Rnd Prob

variable {K σ : Type} [Field K] [LinearOrder K]

/-- `y` is `x` repaired: inside the bounds everywhere, unchanged where `x` was inside. -/
def Repaired (lb ub x y : List (Fl K)) : Prop :=
  y.length = x.length ∧ ∀ (i : Nat) (l u v w : Fl K), lb[i]? = some l → ub[i]? = some u → x[i]? = some v →
    y[i]? = some w → l ≤ w ∧ w ≤ u ∧ (l ≤ v ∧ v ≤ u → w = v)

/-- Bounds for the dimension of `x`, in order, without NaN. -/
structure BoxFor (lb ub x : List (Fl K)) : Prop where
  lenL : lb.length = x.length
  lenU : ub.length = x.length
  ordered : ∀ (i : Nat) (l u : Fl K), lb[i]? = some l → ub[i]? = some u → l ≤ u ∧ u ≠ .nan

/-- Loops that rewrite a vector component by component. -/
def PrefixOk (P : Nat → Fl K → Prop) (x : List (Fl K)) (k : Nat) (y : List (Fl K)) : Prop :=
  y.length = x.length ∧ (∀ (i : Nat) (w : Fl K), i < k → y[i]? = some w → P i w) ∧
    ∀ i, k ≤ i → y[i]? = x[i]?

omit [Field K] [LinearOrder K] in
theorem prefixOk_zero (P : Nat → Fl K → Prop) (x : List (Fl K)) : PrefixOk P x 0 x :=
  ⟨rfl, fun _ _ h => absurd h (by omega), fun _ _ => rfl⟩

omit [Field K] [LinearOrder K] in
theorem prefixOk_set {P : Nat → Fl K → Prop} {x y : List (Fl K)} {k : Nat} (h : PrefixOk P x k y) {w : Fl K}
    (hw : P k w) : PrefixOk P x (k + 1) (y.set k w) := by
  refine ⟨by simpa using h.1, ?_, ?_⟩
  · intro i w' hi hw'
    rw [List.getElem?_set] at hw'
    by_cases e : k = i
    · subst e
      rw [if_pos rfl] at hw'
      split at hw' <;> cases hw'
      exact hw
    · rw [if_neg e] at hw'
      exact h.2.1 i w' (by omega) hw'
  · intro i hi
    rw [List.getElem?_set, if_neg (by omega)]
    exact h.2.2 i (by omega)

omit [Field K] [LinearOrder K] in
theorem prefixOk_skip {P : Nat → Fl K → Prop} {x y : List (Fl K)} {k : Nat} (h : PrefixOk P x k y)
    (hw : ∀ w, y[k]? = some w → P k w) : PrefixOk P x (k + 1) y := by
  refine ⟨h.1, ?_, fun i hi => h.2.2 i (by omega)⟩
  intro i w hi hw'
  by_cases e : i = k
  · subst e; exact hw w hw'
  · exact h.2.1 i w (by omega) hw'

/-- what a repaired component must satisfy -/
def FixedAt (lb ub x : List (Fl K)) (i : Nat) (w : Fl K) : Prop :=
  ∀ l u v : Fl K, lb[i]? = some l → ub[i]? = some u → x[i]? = some v → l ≤ w ∧ w ≤ u ∧ (l ≤ v ∧ v ≤ u → w = v)

omit [Field K] in
theorem repaired_of {lb ub x y : List (Fl K)} (h : PrefixOk (FixedAt lb ub x) x x.length y) : Repaired lb ub x y := by
  refine ⟨h.1, ?_⟩
  intro i l u v w hl hu hv hw
  exact h.2.1 i w (List.getElem?_eq_some_iff.mp hv).1 hw l u v hl hu hv

omit [Field K] in
theorem fixedAt_of {lb ub x : List (Fl K)} {i : Nat} (h1 : i < lb.length) (h2 : i < ub.length) (h3 : i < x.length)
    {w : Fl K} (h : lb[i] ≤ w ∧ w ≤ ub[i] ∧ (lb[i] ≤ x[i] ∧ x[i] ≤ ub[i] → w = x[i])) : FixedAt lb ub x i w := by
  intro l u v hl hu hv
  rw [List.getElem?_eq_getElem h1] at hl
  rw [List.getElem?_eq_getElem h2] at hu
  rw [List.getElem?_eq_getElem h3] at hv
  cases hl; cases hu; cases hv; exact h

omit [Field K] in
theorem getElem_suffix {x y : List (Fl K)} {i : Nat} (hx : i < x.length) (hy : y.length = x.length)
    (h : y[i]? = x[i]?) : y[i]'(by omega) = x[i] := by
  rw [List.getElem?_eq_getElem hx, List.getElem?_eq_getElem (by omega)] at h
  exact Option.some.inj h

omit [Field K] in
theorem stick1_spec {l u v : Fl K} (hlu : l ≤ u) (hu : u ≠ .nan) (hv : v ≠ .nan) :
    l ≤ stick1 l u v ∧ stick1 l u v ≤ u ∧ (l ≤ v ∧ v ≤ u → stick1 l u v = v) := by
  have hl : l ≠ .nan := by
    intro h; subst h
    rw [show u = Fl.nan from le_antisymm (Fl.le_nan u) hlu] at hu; exact hu rfl
  unfold stick1 Fl.gt
  by_cases h1 : v < l
  · have e1 : Fl.lt v l = true := (Fl.lt_iff hv hl).mpr h1
    have e2 : Fl.lt u l = false := by
      rw [Bool.eq_false_iff, ne_eq, Fl.lt_iff hu hl]; exact not_lt.mpr hlu
    simp only [e1, if_true, e2, Bool.false_eq_true, if_false]
    exact ⟨le_rfl, hlu, fun h => absurd h1 (not_lt.mpr h.1)⟩
  · have e1 : Fl.lt v l = false := by rw [Bool.eq_false_iff, ne_eq, Fl.lt_iff hv hl]; exact h1
    simp only [e1, Bool.false_eq_true, if_false]
    by_cases h2 : u < v
    · rw [(Fl.lt_iff hu hv).mpr h2, if_pos rfl]
      exact ⟨hlu, le_rfl, fun h => absurd h2 (not_lt.mpr h.2)⟩
    · have e2 : Fl.lt u v = false := by rw [Bool.eq_false_iff, ne_eq, Fl.lt_iff hu hv]; exact h2
      rw [e2, if_neg (by simp)]
      exact ⟨not_lt.mp h1, not_lt.mp h2, fun _ => rfl⟩

omit [Field K] in
/-- C48 (stick). Any vector without NaN, any ordered bounds (infinite ones included). -/
theorem C48_stick (lb ub x : List (Fl K)) (hb : BoxFor lb ub x) (hx : ∀ v ∈ x, v ≠ Fl.nan) :
    ∃ y, forceBoundsStick x lb ub = .ok y ∧ Repaired lb ub x y := by
  have := Outcome.range_sat (f := forceStickAt lb ub) (PrefixOk (FixedAt lb ub x) x) x.length x
    (prefixOk_zero _ _) ?_
  · obtain ⟨y, h1, h2⟩ := this
    exact ⟨y, h1, repaired_of h2⟩
  · intro i y hi hy
    have h1 : i < lb.length := by rw [hb.lenL]; exact hi
    have h2 : i < ub.length := by rw [hb.lenU]; exact hi
    have h3 : i < y.length := by rw [hy.1]; exact hi
    unfold forceStickAt
    rw [Outcome.get_of_lt h1, Outcome.get_of_lt h2, Outcome.get_of_lt h3]
    simp only [Outcome.bind_ok]
    rw [Outcome.set_of_lt h3, Outcome.sat_ok, getElem_suffix hi hy.1 (hy.2.2 i le_rfl)]
    obtain ⟨ho, hn⟩ := hb.ordered i _ _ (List.getElem?_eq_getElem h1) (List.getElem?_eq_getElem h2)
    exact prefixOk_set hy (fixedAt_of h1 h2 hi (stick1_spec ho hn (hx _ (List.getElem_mem hi))))

omit [Field K] in
theorem stick1_nearest {l u v : Fl K} (hlu : l ≤ u) (hu : u ≠ .nan) (hv : v ≠ .nan) :
    (v < l → stick1 l u v = l) ∧ (u < v → stick1 l u v = u) ∧ (l ≤ v ∧ v ≤ u → stick1 l u v = v) := by
  have hl : l ≠ .nan := by
    intro h; subst h
    rw [show u = Fl.nan from le_antisymm (Fl.le_nan u) hlu] at hu; exact hu rfl
  refine ⟨fun h => ?_, fun h => ?_, (stick1_spec hlu hu hv).2.2⟩
  · have e2 : Fl.lt u l = false := by
      rw [Bool.eq_false_iff, ne_eq, Fl.lt_iff hu hl]; exact not_lt.mpr hlu
    simp [stick1, Fl.gt, (Fl.lt_iff hv hl).mpr h, e2]
  · have e1 : Fl.lt v l = false := by
      rw [Bool.eq_false_iff, ne_eq, Fl.lt_iff hv hl]; exact not_lt.mpr (hlu.trans h.le)
    simp [stick1, Fl.gt, e1, (Fl.lt_iff hu hv).mpr h]

omit [Field K] in
/-- C48 (stick, the value). A component outside is moved to the bound it violates. -/
theorem C48_stick_nearest (lb ub x : List (Fl K)) (hb : BoxFor lb ub x) (hx : ∀ v ∈ x, v ≠ Fl.nan) :
    ∃ y, forceBoundsStick x lb ub = .ok y ∧ y.length = x.length ∧ ∀ (i : Nat) (l u v w : Fl K), lb[i]? = some l →
      ub[i]? = some u → x[i]? = some v → y[i]? = some w → (v < l → w = l) ∧ (u < v → w = u) ∧ (l ≤ v ∧ v ≤ u → w = v) := by
  have := Outcome.range_sat (f := forceStickAt lb ub) (PrefixOk (fun i w => ∀ l u v : Fl K, lb[i]? = some l →
      ub[i]? = some u → x[i]? = some v → (v < l → w = l) ∧ (u < v → w = u) ∧ (l ≤ v ∧ v ≤ u → w = v)) x) x.length x
    (prefixOk_zero _ _) ?_
  · obtain ⟨y, h1, h2⟩ := this
    refine ⟨y, h1, h2.1, ?_⟩
    intro i l u v w hl hu hv hw
    exact h2.2.1 i w (List.getElem?_eq_some_iff.mp hv).1 hw l u v hl hu hv
  · intro i y hi hy
    have h1 : i < lb.length := by rw [hb.lenL]; exact hi
    have h2 : i < ub.length := by rw [hb.lenU]; exact hi
    have h3 : i < y.length := by rw [hy.1]; exact hi
    unfold forceStickAt
    rw [Outcome.get_of_lt h1, Outcome.get_of_lt h2, Outcome.get_of_lt h3]
    simp only [Outcome.bind_ok]
    rw [Outcome.set_of_lt h3, Outcome.sat_ok, getElem_suffix hi hy.1 (hy.2.2 i le_rfl)]
    obtain ⟨ho, hn⟩ := hb.ordered i _ _ (List.getElem?_eq_getElem h1) (List.getElem?_eq_getElem h2)
    refine prefixOk_set hy (fun l u v hl hu hv => ?_)
    rw [List.getElem?_eq_getElem h1] at hl
    rw [List.getElem?_eq_getElem h2] at hu
    rw [List.getElem?_eq_getElem hi] at hv
    cases hl; cases hu; cases hv
    exact stick1_nearest ho hn (hx _ (List.getElem_mem hi))

/-- C48 (random). Any vector without NaN, any ordered bounds, any engine: the result is repaired, or
`std::invalid_argument` is thrown because a component outside has bounds that are infinite or too far apart. -/
theorem C48_random {g : Gen K σ} {rep : K → Prop} {op : Fl.Ops K} (hg : g.Lawful rep) (lb ub x : List (Fl K))
    (hb : BoxFor lb ub x) (hx : ∀ v ∈ x, v ≠ Fl.nan) (s : σ) :
    Run.wp (forceBoundsRandom g op x lb ub) (fun y _ => Repaired lb ub x y)
      (fun e _ => e = .invalidArgument ∧ ∃ (i : Nat) (l u v : Fl K), lb[i]? = some l ∧ ub[i]? = some u ∧
        x[i]? = some v ∧ (v < l ∨ u < v) ∧
        ¬ (l.isFinite = true ∧ u.isFinite = true ∧ (op.sub u l).isFinite = true)) s := by
  unfold forceBoundsRandom
  refine (Run.wp_range (fun k y _ => PrefixOk (FixedAt lb ub x) x k y) x.length x s (prefixOk_zero _ _) ?_).mono
    (fun y _ h => repaired_of h) (fun _ _ h => h)
  intro i y s hi hy
  have h1 : i < lb.length := by rw [hb.lenL]; exact hi
  have h2 : i < ub.length := by rw [hb.lenU]; exact hi
  have h3 : i < y.length := by rw [hy.1]; exact hi
  obtain ⟨ho, hu⟩ := hb.ordered i _ _ (List.getElem?_eq_getElem h1) (List.getElem?_eq_getElem h2)
  have hl : lb[i] ≠ .nan := by
    intro h; rw [h] at ho
    exact hu (le_antisymm (Fl.le_nan _) ho)
  have hv : x[i] ≠ .nan := hx _ (List.getElem_mem hi)
  have ey : y[i] = x[i] := getElem_suffix hi hy.1 (hy.2.2 i le_rfl)
  unfold forceRandomAt Fl.gt
  rw [Run.wp_bind, Run.wp_lift_get h1, Run.wp_bind, Run.wp_lift_get h2, Run.wp_bind, Run.wp_lift_get h3, Run.wp_ite,
    ey]
  constructor
  · intro hout
    have hout' : x[i] < lb[i] ∨ ub[i] < x[i] := by
      simpa [Fl.lt_iff hv hl, Fl.lt_iff hu hv] using hout
    rw [Run.wp_bind]
    refine (wp_uniformReal hg true ho hu hl s).mono ?_ ?_
    · rintro w s ⟨-, hw1, hw2⟩
      rw [Run.wp_lift_set h3]
      refine prefixOk_set hy (fixedAt_of h1 h2 hi ⟨hw1, hw2, fun h => ?_⟩)
      rcases hout' with h' | h'
      · exact absurd h' (not_lt.mpr h.1)
      · exact absurd h' (not_lt.mpr h.2)
    · rintro e s ⟨rfl, hf⟩
      exact ⟨rfl, i, _, _, _, List.getElem?_eq_getElem h1, List.getElem?_eq_getElem h2, List.getElem?_eq_getElem hi,
        hout', hf⟩
  · intro hin
    have hin' : lb[i] ≤ x[i] ∧ x[i] ≤ ub[i] := by
      simpa [Fl.lt_iff hv hl, Fl.lt_iff hu hv] using hin
    rw [Run.wp_pure]
    refine prefixOk_skip hy ?_
    intro w hw
    rw [List.getElem?_eq_getElem h3, ey] at hw
    cases hw
    exact fixedAt_of h1 h2 hi ⟨hin'.1, hin'.2, fun _ => rfl⟩

/-! ## Reflection -/

theorem exact_two [IsStrictOrderedRing K] (a v : K) :
    (Fl.exact K).sub ((Fl.exact K).mul ((Fl.exact K).add (Fl.exact K).one (Fl.exact K).one) (.fin a)) (.fin v) =
      Fl.fin (2 * a - v) := by
  simp only [Fl.exact, Fl.add, Fl.mul, Fl.sub, Fl.neg]
  congr 1
  ring

theorem reflect_inside {op : Fl.Ops K} {l u v : Fl K} (hl : l ≠ .nan) (hu : u ≠ .nan) (hv : v ≠ .nan) (h1 : l ≤ v)
    (h2 : v ≤ u) (fuel : Nat) : reflect op l u fuel v = .ok v := by
  unfold reflect
  rw [if_neg]
  unfold Fl.gt
  simp [Fl.lt_iff hv hl, Fl.lt_iff hu hv, h1, h2]

theorem reflect_outside {op : Fl.Ops K} {l u v : Fl K} (hl : l ≠ .nan) (hu : u ≠ .nan) (hv : v ≠ .nan)
    (h : v < l ∨ u < v) (fuel : Nat) :
    reflect op l u (fuel + 1) v = reflect op l u fuel (reflectStep op l u v) ∧ reflect op l u 0 v = .nofuel := by
  have : (Fl.lt v l || Fl.gt v u) = true := by
    unfold Fl.gt
    simpa [Fl.lt_iff hv hl, Fl.lt_iff hu hv] using h
  constructor
  · rw [reflect, if_pos this]
  · rw [reflect, if_pos this]

theorem step_fin [IsStrictOrderedRing K] (a b v : K) :
    reflectStep (Fl.exact K) (.fin a) (.fin b) (.fin v) =
      let v1 := if v < a then 2 * a - v else v
      Fl.fin (if b < v1 then 2 * b - v1 else v1) := by
  unfold reflectStep Fl.gt
  by_cases h : v < a <;>
    simp only [Fl.lt, h, decide_true, decide_false, if_true, if_false, exact_two, Bool.false_eq_true] <;>
    split <;> simp_all [exact_two]

/-- with finite bounds, one iteration brings a point outside closer by the width of the box -/
theorem reflect_fin [IsStrictOrderedRing K] {a b : K} (hab : a < b) (n : Nat) :
    ∀ (v : K) (fuel : Nat), n ≤ fuel → (a - v ≤ n * (b - a)) → (v - b ≤ n * (b - a)) →
      ∃ w, reflect (Fl.exact K) (.fin a) (.fin b) fuel (.fin v) = .ok (.fin w) ∧ a ≤ w ∧ w ≤ b := by
  induction n with
  | zero =>
    intro v fuel _ h1 h2
    simp only [Nat.cast_zero, zero_mul, sub_nonpos] at h1 h2
    exact ⟨v, reflect_inside (by simp) (by simp) (by simp) (by simpa using h1) (by simpa using h2) fuel, h1, h2⟩
  | succ n ih =>
    intro v fuel hf h1 h2
    obtain ⟨fuel, rfl⟩ : ∃ m, fuel = m + 1 := ⟨fuel - 1, by omega⟩
    by_cases hin : a ≤ v ∧ v ≤ b
    · exact ⟨v, reflect_inside (by simp) (by simp) (by simp) (by simpa using hin.1) (by simpa using hin.2) _, hin⟩
    · have hout : Fl.fin v < Fl.fin a ∨ Fl.fin b < Fl.fin v := by
        simp only [Fl.fin_lt_fin]
        by_contra h
        simp only [not_or, not_lt] at h
        exact hin h
      rw [(reflect_outside (by simp) (by simp) (by simp) hout fuel).1, step_fin]
      push_cast at h1 h2
      have hn : (0 : K) ≤ n * (b - a) := mul_nonneg (Nat.cast_nonneg _) (by linarith)
      refine ih _ fuel (by omega) ?_ ?_
      · split <;> split <;> nlinarith
      · split <;> split <;> nlinarith

theorem reflect_terminates [IsStrictOrderedRing K] [Archimedean K] {l u : Fl K} (hlu : l < u) (hu : u ≠ .nan) (v : K) :
    ∃ N, ∀ fuel, N ≤ fuel → ∃ w, reflect (Fl.exact K) l u fuel (.fin v) = .ok w ∧ l ≤ w ∧ w ≤ u ∧
      (l ≤ .fin v ∧ .fin v ≤ u → w = .fin v) := by
  have hl : l ≠ .nan := by rintro rfl; exact absurd hlu (Fl.not_nan_lt u)
  by_cases hin : l ≤ .fin v ∧ .fin v ≤ u
  · exact ⟨0, fun fuel _ => ⟨.fin v, reflect_inside hl hu (by simp) hin.1 hin.2 fuel, hin.1, hin.2, fun _ => rfl⟩⟩
  · have hout : Fl.fin v < l ∨ u < Fl.fin v := by
      by_contra h
      simp only [not_or, not_lt] at h
      exact hin h
    cases l with
    | nan => exact absurd rfl hl
    | pinf => cases u <;> simp_all [Fl.lt_def, Fl.cls]
    | ninf =>
      cases u with
      | nan => exact absurd rfl hu
      | ninf => exact absurd hlu (lt_irrefl _)
      | pinf => exact absurd hout (by simp [Fl.lt_def, Fl.cls])
      | fin b =>
        have hbv : b < v := by
          rcases hout with h | h
          · simp [Fl.lt_def, Fl.cls] at h
          · simpa using h
        refine ⟨1, fun fuel hf => ?_⟩
        obtain ⟨fuel, rfl⟩ : ∃ m, fuel = m + 1 := ⟨fuel - 1, by omega⟩
        rw [(reflect_outside (by simp) (by simp) (by simp) hout fuel).1]
        have hstep : reflectStep (Fl.exact K) .ninf (.fin b) (.fin v) = .fin (2 * b - v) := by
          unfold reflectStep Fl.gt
          simp only [Fl.lt, Bool.false_eq_true, if_false, hbv, decide_true, if_true, exact_two]
        rw [hstep]
        refine ⟨.fin (2 * b - v), reflect_inside (by simp) (by simp) (by simp) (by simp) (by simp; linarith) fuel,
          by simp, by simp; linarith, fun h => absurd h hin⟩
    | fin a =>
      cases u with
      | nan => exact absurd rfl hu
      | ninf => simp [Fl.lt_def, Fl.cls] at hlu
      | pinf =>
        have hva : v < a := by
          rcases hout with h | h
          · simpa using h
          · simp [Fl.lt_def, Fl.cls] at h
        refine ⟨1, fun fuel hf => ?_⟩
        obtain ⟨fuel, rfl⟩ : ∃ m, fuel = m + 1 := ⟨fuel - 1, by omega⟩
        rw [(reflect_outside (by simp) (by simp) (by simp) hout fuel).1]
        have hstep : reflectStep (Fl.exact K) (.fin a) .pinf (.fin v) = .fin (2 * a - v) := by
          unfold reflectStep Fl.gt
          simp only [Fl.lt, Bool.false_eq_true, if_false, hva, decide_true, if_true, exact_two]
        rw [hstep]
        have hle : Fl.fin a ≤ Fl.fin (2 * a - v) := by simp; linarith
        have hle' : Fl.fin (2 * a - v) ≤ Fl.pinf := by simp [Fl.le_def, Fl.cls]
        exact ⟨.fin (2 * a - v), reflect_inside (by simp) (by simp) (by simp) hle hle' fuel, hle, hle',
          fun h => absurd h hin⟩
      | fin b =>
        have hab : a < b := by simpa using hlu
        obtain ⟨n1, h1⟩ := exists_nat_ge ((a - v) / (b - a))
        obtain ⟨n2, h2⟩ := exists_nat_ge ((v - b) / (b - a))
        have hpos : 0 < b - a := by linarith
        rw [div_le_iff₀ hpos] at h1 h2
        have hm1 : (n1 : K) ≤ ((max n1 n2 : Nat) : K) := by exact_mod_cast le_max_left _ _
        have hm2 : (n2 : K) ≤ ((max n1 n2 : Nat) : K) := by exact_mod_cast le_max_right _ _
        refine ⟨max n1 n2, fun fuel hf => ?_⟩
        obtain ⟨w, e, hw1, hw2⟩ := reflect_fin hab (max n1 n2) v fuel hf (by nlinarith) (by nlinarith)
        exact ⟨.fin w, e, by simpa using hw1, by simpa using hw2, fun h => absurd h hin⟩

theorem exists_common {P : Nat → Nat → Prop} (n : Nat) (h : ∀ j < n, ∃ N, ∀ f, N ≤ f → P j f) :
    ∃ N, ∀ j < n, ∀ f, N ≤ f → P j f := by
  induction n with
  | zero => exact ⟨0, fun j hj => absurd hj (by omega)⟩
  | succ n ih =>
    obtain ⟨N1, h1⟩ := ih (fun j hj => h j (by omega))
    obtain ⟨N2, h2⟩ := h n (by omega)
    refine ⟨max N1 N2, fun j hj f hf => ?_⟩
    by_cases e : j = n
    · subst e; exact h2 f (by omega)
    · exact h1 j (by omega) f (by omega)

/-- C48 (reflection), partial: exact arithmetic, strictly ordered bounds. For every finite vector the `while` loops end
and the result is repaired. Missing: `lb = ub`, where the loop does not end (`C48_reflection_hangs`), and rounding. -/
theorem C48_reflection_partial [IsStrictOrderedRing K] [Archimedean K] (lb ub x : List (Fl K)) (hb : BoxFor lb ub x)
    (hlt : ∀ (i : Nat) (l u : Fl K), lb[i]? = some l → ub[i]? = some u → l < u)
    (hx : ∀ v ∈ x, v.isFinite = true) :
    ∃ N, ∀ fuel, N ≤ fuel → ∃ y, forceBoundsReflection (Fl.exact K) fuel x lb ub = .ok y ∧ Repaired lb ub x y := by
  have hcomp : ∀ j < x.length, ∃ N, ∀ fuel, N ≤ fuel → ∃ w : Fl K, ∀ (l u v : Fl K), lb[j]? = some l → ub[j]? = some u →
      x[j]? = some v → reflect (Fl.exact K) l u fuel v = .ok w ∧ l ≤ w ∧ w ≤ u ∧ (l ≤ v ∧ v ≤ u → w = v) := by
    intro j hj
    have h1 : j < lb.length := by rw [hb.lenL]; exact hj
    have h2 : j < ub.length := by rw [hb.lenU]; exact hj
    obtain ⟨ho, hu⟩ := hb.ordered j _ _ (List.getElem?_eq_getElem h1) (List.getElem?_eq_getElem h2)
    obtain ⟨k, hk⟩ := fin_of_finite (hx _ (List.getElem_mem hj))
    obtain ⟨N, hN⟩ := reflect_terminates
      (hlt j _ _ (List.getElem?_eq_getElem h1) (List.getElem?_eq_getElem h2)) hu k
    refine ⟨N, fun fuel hf => ?_⟩
    obtain ⟨w, hw⟩ := hN fuel hf
    refine ⟨w, ?_⟩
    intro l u v hl hu hv
    rw [List.getElem?_eq_getElem h1] at hl
    rw [List.getElem?_eq_getElem h2] at hu
    rw [List.getElem?_eq_getElem hj] at hv
    cases hl; cases hu; cases hv
    rw [hk]; exact hw
  obtain ⟨N, hN⟩ := exists_common x.length hcomp
  refine ⟨N, fun fuel hf => ?_⟩
  have := Outcome.range_sat (f := forceReflectionAt (Fl.exact K) fuel lb ub) (PrefixOk (FixedAt lb ub x) x) x.length x
    (prefixOk_zero _ _) ?_
  · obtain ⟨y, h1, h2⟩ := this
    exact ⟨y, h1, repaired_of h2⟩
  · intro i y hi hy
    have h1 : i < lb.length := by rw [hb.lenL]; exact hi
    have h2 : i < ub.length := by rw [hb.lenU]; exact hi
    have h3 : i < y.length := by rw [hy.1]; exact hi
    obtain ⟨w, hw⟩ := hN i hi fuel hf
    have hw := hw _ _ _ (List.getElem?_eq_getElem h1) (List.getElem?_eq_getElem h2) (List.getElem?_eq_getElem hi)
    unfold forceReflectionAt
    rw [Outcome.get_of_lt h1, Outcome.get_of_lt h2, Outcome.get_of_lt h3]
    simp only [Outcome.bind_ok]
    rw [getElem_suffix hi hy.1 (hy.2.2 i le_rfl), hw.1]
    simp only [Outcome.bind_ok]
    rw [Outcome.set_of_lt h3, Outcome.sat_ok]
    exact prefixOk_set hy (fixedAt_of h1 h2 hi hw.2)

/-- C48 is false of `force_bounds_reflection` when a lower bound equals its upper bound (allowed for problems): for any
other value the loop never ends. The same happens with an infinite value and finite bounds. -/
theorem C48_reflection_hangs [IsStrictOrderedRing K] (a b v : K) (hv : v ≠ a) (fuel : Nat) :
    forceBoundsReflection (Fl.exact K) fuel [.fin v] [.fin a] [.fin a] = .nofuel ∧
    forceBoundsReflection (Fl.exact K) fuel [.pinf] [.fin a] [.fin b] = .nofuel := by
  have hone : ∀ (l u v : Fl K), (∀ fuel, reflect (Fl.exact K) l u fuel v = .nofuel) →
      forceBoundsReflection (Fl.exact K) fuel [v] [l] [u] = .nofuel := by
    intro l u v h
    unfold forceBoundsReflection forceReflectionAt
    simp [List.range_succ, List.foldlM, Outcome.get, h]
  refine ⟨hone _ _ _ ?_, hone _ _ _ ?_⟩
  · intro fuel
    clear hone
    induction fuel generalizing v with
    | zero =>
      refine (reflect_outside (by simp) (by simp) (by simp) ?_ 0).2
      simpa using lt_or_gt_of_ne hv
    | succ n ih =>
      have hout : Fl.fin v < Fl.fin a ∨ Fl.fin a < Fl.fin v := by simpa using lt_or_gt_of_ne hv
      rw [(reflect_outside (by simp) (by simp) (by simp) hout n).1, step_fin]
      apply ih
      split <;> split <;> intro h <;> apply hv <;> linarith
  · intro fuel
    have hpm : ∀ fuel, reflect (Fl.exact K) (.fin a) (.fin b) fuel .pinf = .nofuel ∧
        reflect (Fl.exact K) (.fin a) (.fin b) fuel .ninf = .nofuel := by
      intro fuel
      have two : (0 : K) < 1 + 1 := by positivity
      induction fuel with
      | zero =>
        refine ⟨(reflect_outside (by simp) (by simp) (by simp) ?_ 0).2,
          (reflect_outside (by simp) (by simp) (by simp) ?_ 0).2⟩
        · right; simp [Fl.lt_def, Fl.cls]
        · left; simp [Fl.lt_def, Fl.cls]
      | succ n ih =>
        rw [(reflect_outside (by simp) (by simp) (by simp) (by right; simp [Fl.lt_def, Fl.cls]) n).1,
          (reflect_outside (by simp) (by simp) (by simp) (by left; simp [Fl.lt_def, Fl.cls]) n).1]
        have e1 : reflectStep (Fl.exact K) (.fin a) (.fin b) .pinf = .ninf := by
          simp [reflectStep, Fl.gt, Fl.lt, Fl.exact, Fl.add, Fl.mul, Fl.sub, Fl.neg]
        have e2 : reflectStep (Fl.exact K) (.fin a) (.fin b) .ninf = .ninf := by
          simp [reflectStep, Fl.gt, Fl.lt, Fl.exact, Fl.add, Fl.mul, Fl.sub, Fl.neg]
        rw [e1, e2]
        exact ⟨ih.2, ih.2⟩
    exact (hpm fuel).1

omit [Field K] in
/-- NaN components are left alone by the repair (here `force_bounds_stick`; the other two test with the same
comparisons). -/
theorem C48_nan (l u : Fl K) : stick1 l u .nan = .nan := by
  unfold stick1 Fl.gt
  simp [Fl.lt_nan_left, Fl.lt_nan_right]

example : BoxFor [Fl.fin (0 : ℚ), .ninf] [.fin 1, .fin 2] [.fin (7 / 2), .fin 5] where
  lenL := rfl
  lenU := rfl
  ordered := by
    intro i l u hl hu
    match i with
    | 0 => simp at hl hu; subst hl hu; simp
    | 1 => simp at hl hu; subst hl hu; simp
    | i + 2 => simp at hl

example : forceBoundsReflection (Fl.exact ℚ) 4 [.fin (7 / 2), .fin 5] [.fin 0, .ninf] [.fin 1, .fin 2] =
    .ok [.fin (1 / 2), .fin (-1)] := by decide +kernel

example : forceBoundsStick [.fin (7 / 2), .pinf, .fin (-1)] [Fl.fin (0 : ℚ), .ninf, .fin (-3)] [.fin 1, .fin 2, .fin 3] =
    .ok [.fin 1, .fin 2, .fin (-1)] := by decide +kernel

example : (forceBoundsRandom demoGen (Fl.exact ℚ) [.fin (7 / 2), .fin 1] [.fin 0, .ninf] [.fin 1, .fin 2] [1 / 3]).1 =
    .ok [.fin (1 / 3), .fin 1] := by decide +kernel

end Verif.Props
