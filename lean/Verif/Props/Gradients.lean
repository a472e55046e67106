import Verif.Model.Gradients
import Verif.Props.Problem
import Mathlib.Algebra.Polynomial.Derivative
import Mathlib.Algebra.Polynomial.Eval.Degree
import Mathlib.Data.Prod.Lex
import Mathlib.Tactic.FieldSimp

/-!
# C55, C56: numerical gradients and estimated sparsity
-/

set_option autoImplicit false

namespace Verif.Props

open Verif Prob Grad

/-- A counted loop whose step either fails (exactly when `bad`) or keeps the invariant. -/
theorem range_foldlM_bad {σ : Type} {f : σ → Nat → Outcome σ} {e : Exn} (bad : Nat → Prop) (Inv : Nat → σ → Prop)
    (n : Nat) (s : σ) (h0 : Inv 0 s)
    (step : ∀ k s, k < n → Inv k s → (bad k ∧ f s k = .throws e) ∨ (¬ bad k ∧ (f s k).Sat (Inv (k + 1)))) :
    ((∃ k < n, bad k) ∧ (List.range n).foldlM f s = .throws e) ∨
    ((∀ k < n, ¬ bad k) ∧ ((List.range n).foldlM f s).Sat (Inv n)) := by
  induction n with
  | zero => right; exact ⟨by simp, by simpa using h0⟩
  | succ n ih =>
    rw [List.range_succ, List.foldlM_append]
    rcases ih (fun k s hk => step k s (by omega)) with ⟨⟨k, hk, hb⟩, he⟩ | ⟨hb, hs⟩
    · left
      exact ⟨⟨k, by omega, hb⟩, by rw [he]; rfl⟩
    · obtain ⟨a, ha, hi⟩ := hs
      rw [ha]
      simp only [Outcome.bind_ok, List.foldlM_cons, List.foldlM_nil]
      rcases step n a (by omega) hi with ⟨hbad, hthr⟩ | ⟨hgood, b, hok, hi'⟩
      · left
        exact ⟨⟨n, by omega, hbad⟩, by rw [hthr]; rfl⟩
      · right
        refine ⟨fun k hk => ?_, ?_⟩
        · rcases Nat.lt_succ_iff_lt_or_eq.mp hk with hk | rfl
          · exact hb k hk
          · exact hgood
        · rw [hok]
          simp only [Outcome.bind_ok, Outcome.pure_eq, Outcome.sat_ok]
          exact hi'

section
variable {K : Type} [Field K] [LinearOrder K]

/-- The point `x` with component `j` moved by `d` steps upwards. -/
def nudged (x : List K) (dx : K) (j : Nat) (d : K) : List K := x.set j (x.getD j 0 + d * (max |x.getD j 0| 1 * dx))

omit [Field K] [LinearOrder K] in
theorem writeColumn_spec (nx m j : Nat) (val : Nat → Outcome (Fl K)) (v : Nat → Fl K) (g : List (Fl K))
    (hv : ∀ i < m, val i = .ok (v i)) (hj : j < nx) (hg : g.length = m * nx) :
    (writeColumn nx m j val g).Sat fun g' => g'.length = m * nx ∧
      (∀ i < m, g'[j + i * nx]? = some (v i)) ∧ ∀ j' < nx, j' ≠ j → ∀ i < m, g'[j' + i * nx]? = g[j' + i * nx]? := by
  have hidx : ∀ i < m, ∀ j < nx, j + i * nx < m * nx := by
    intro i hi j hj
    have := Nat.mul_le_mul_right nx (show i + 1 ≤ m by omega)
    rw [Nat.succ_mul] at this; omega
  have hinj : ∀ i i' j j' : Nat, j < nx → j' < nx → j + i * nx = j' + i' * nx → i = i' ∧ j = j' := by
    intro i i' j j' hj hj' h
    have hnx : 0 < nx := by omega
    have h1 : (j + i * nx) % nx = (j' + i' * nx) % nx := by rw [h]
    rw [Nat.add_mul_mod_self_right, Nat.add_mul_mod_self_right, Nat.mod_eq_of_lt hj, Nat.mod_eq_of_lt hj'] at h1
    subst h1
    have : i * nx = i' * nx := by omega
    exact ⟨Nat.eq_of_mul_eq_mul_right hnx this, rfl⟩
  unfold writeColumn
  refine (Outcome.range_sat (fun k g' => g'.length = m * nx ∧ (∀ i < k, g'[j + i * nx]? = some (v i)) ∧
      ∀ j' < nx, j' ≠ j → ∀ i < m, g'[j' + i * nx]? = g[j' + i * nx]?) m g ⟨hg, by simp, fun _ _ _ _ _ => rfl⟩ ?_)
  rintro k g' hk ⟨h1, h2, h3⟩
  rw [hv k hk]
  simp only [Outcome.bind_ok]
  rw [Outcome.set_of_lt (by rw [h1]; exact hidx k hk j hj), Outcome.sat_ok]
  refine ⟨by simpa using h1, fun i hi => ?_, fun j' hj' hne i hi => ?_⟩
  · rw [List.getElem?_set]
    by_cases hik : k = i
    · subst hik
      rw [if_pos rfl, if_pos (by rw [h1]; exact hidx k hk j hj)]
    · rw [if_neg (fun h => hik (hinj _ _ _ _ hj hj h).1)]
      exact h2 i (by omega)
  · rw [List.getElem?_set, if_neg (fun h => hne (hinj _ _ _ _ hj hj' h).2.symm)]
    exact h3 j' hj' hne i hi

variable [IsStrictOrderedRing K]

theorem fl_abs_fin (a : K) : Fl.abs (Fl.fin a) = Fl.fin |a| := by
  simp only [Fl.abs]
  congr 1
  by_cases h : a < 0
  · rw [if_pos h, abs_of_neg h]
  · rw [if_neg h, abs_of_nonneg (not_lt.mp h)]

theorem stepSize_fin (a dx : K) : stepSize (Fl.exact K) (.fin a) (.fin dx) = .fin (max |a| 1 * dx) := by
  unfold stepSize
  rw [fl_abs_fin]
  unfold Fl.stdMax
  have h1 : (Fl.exact K).one = .fin 1 := rfl
  rw [h1]
  by_cases h : |a| < 1
  · rw [if_pos ((Fl.lt_iff (by simp) (by simp)).mpr h), max_eq_right h.le]; rfl
  · rw [if_neg (fun hc => h ((Fl.lt_iff (by simp) (by simp)).mp hc)), max_eq_left (not_lt.mp h)]; rfl

omit [LinearOrder K] [IsStrictOrderedRing K] in
theorem fl_sub_fin (a b : K) : Fl.sub (Fl.fin a) (Fl.fin b) = Fl.fin (a - b) := by
  simp [Fl.sub, Fl.neg, Fl.add, sub_eq_add_neg]

omit [LinearOrder K] [IsStrictOrderedRing K] in
theorem fl_map_set (x : List K) (j : Nat) (t : K) (h : j < x.length) :
    Outcome.set (x.map Fl.fin) j (.fin t) = .ok ((x.set j t).map Fl.fin) := by
  rw [Outcome.set_of_lt (by simpa using h), List.map_set]

omit [LinearOrder K] [IsStrictOrderedRing K] in
theorem fl_set_back (x : List K) (j : Nat) (t : K) (h : j < x.length) :
    Outcome.set ((x.set j t).map Fl.fin) j (.fin x[j]) = .ok (x.map Fl.fin) := by
  rw [Outcome.set_of_lt (by simpa using h)]
  congr 1
  rw [← List.map_set, List.set_set, List.set_getElem_self]

omit [LinearOrder K] [IsStrictOrderedRing K] in
theorem fl_get_map (x : List K) (j : Nat) (h : j < x.length) : Outcome.get (x.map Fl.fin) j = .ok (.fin x[j]) := by
  rw [Outcome.get_of_lt (by simpa using h)]; simp

omit [Field K] [LinearOrder K] [IsStrictOrderedRing K] in
theorem getD_lt (x : List K) (j : Nat) (d : K) (h : j < x.length) : x.getD j d = x[j] := by
  simp only [List.getD]; rw [List.getElem?_eq_getElem h]; rfl

omit [IsStrictOrderedRing K] in
theorem nudged_eq (x : List K) (dx : K) (j : Nat) (d : K) (h : j < x.length) :
    nudged x dx j d = x.set j (x[j] + d * (max |x[j]| 1 * dx)) := by
  unfold nudged
  rw [getD_lt _ _ _ h]

omit [IsStrictOrderedRing K] in
theorem fl_div_fin {a b : K} (hb : b ≠ 0) : Fl.div (Fl.fin a) (Fl.fin b) = Fl.fin (a / b) := by
  simp [Fl.div, hb]

theorem fl_up (x d h : K) : (Fl.exact K).add (.fin x) (.fin (d * h)) = .fin (x + d * h) := rfl

theorem fl_down (x d h : K) : (Fl.exact K).sub (.fin x) (.fin (d * h)) = .fin (x + -d * h) := by
  change Fl.sub (Fl.fin x) (Fl.fin (d * h)) = _
  rw [fl_sub_fin]; congr 1; ring

/-- The step of `estimate_gradient` on finite data. -/
theorem gradientStep_fin {f : List (Fl K) → User (List (Fl K))} {x : List K} {dx : K} {m j : Nat}
    (hj : j < x.length) {fr fl : List K} (hr : f ((nudged x dx j 1).map .fin) = .ok (fr.map .fin))
    (hl : f ((nudged x dx j (-1)).map .fin) = .ok (fl.map .fin)) (g : List (Fl K)) :
    gradientStep (Fl.exact K) f (x.map .fin) (.fin dx) m ((x.map .fin, x.map .fin), g) j =
      if fr.length ≠ m ∨ fl.length ≠ m then .throws .invalidArgument
      else writeColumn x.length fr.length j (lowValue (Fl.exact K) (fr.map .fin) (fl.map .fin) (.fin (max |x[j]| 1 * dx))) g >>=
        fun g => .ok ((x.map .fin, x.map .fin), g) := by
  unfold gradientStep
  simp only [fl_get_map x j hj, Outcome.bind_ok, stepSize_fin]
  have e1 := fl_up x[j] 1 (max |x[j]| 1 * dx)
  have e2 := fl_down x[j] 1 (max |x[j]| 1 * dx)
  rw [one_mul] at e1 e2
  have n1 := nudged_eq x dx j 1 hj
  rw [one_mul] at n1
  rw [e1, e2, fl_map_set x j _ hj, fl_map_set x j _ hj]
  simp only [Outcome.bind_ok]
  rw [← n1, ← nudged_eq x dx j (-1) hj, hr, hl]
  simp only [ofUser, Outcome.bind_ok, List.length_map]
  rw [n1, nudged_eq x dx j (-1) hj, fl_set_back x j _ hj, fl_set_back x j _ hj]
  rfl

/-- **C55.** Layout and values of `estimate_gradient` for a function with finite values: central differences in the
dense lexicographic layout; `std::invalid_argument` exactly when the size of the result changes. -/
theorem C55_low_values {f : List (Fl K) → User (List (Fl K))} {F : List K → List K}
    (hf : ∀ y : List K, f (y.map .fin) = .ok ((F y).map .fin)) (x : List K) {dx : K} (hdx : dx ≠ 0) :
    let bad := fun j => (F (nudged x dx j 1)).length ≠ (F x).length ∨ (F (nudged x dx j (-1))).length ≠ (F x).length
    ((∃ j < x.length, bad j) ∧ estimateGradient (Fl.exact K) f (x.map .fin) (.fin dx) = .throws .invalidArgument) ∨
    ((∀ j < x.length, ¬ bad j) ∧ ∃ g, estimateGradient (Fl.exact K) f (x.map .fin) (.fin dx) = .ok g ∧
      g.length = (F x).length * x.length ∧
      ∀ i < (F x).length, ∀ j < x.length, g[j + i * x.length]? = some (.fin (
        ((F (nudged x dx j 1)).getD i 0 - (F (nudged x dx j (-1))).getD i 0) / (2 * (max |x.getD j 0| 1 * dx))))) := by
  intro bad
  have key := range_foldlM_bad (e := .invalidArgument)
    (f := gradientStep (Fl.exact K) f (x.map .fin) (.fin dx) (F x).length) bad
    (fun k s => s.1 = (x.map Fl.fin, x.map Fl.fin) ∧ s.2.length = (F x).length * x.length ∧
      ∀ i < (F x).length, ∀ j < k, s.2[j + i * x.length]? = some (.fin (
        ((F (nudged x dx j 1)).getD i 0 - (F (nudged x dx j (-1))).getD i 0) / (2 * (max |x.getD j 0| 1 * dx)))))
    x.length ((x.map .fin, x.map .fin), List.replicate ((F x).length * x.length) (.fin 0))
    ⟨rfl, by simp, by omega⟩ (by
      rintro k ⟨s1, g⟩ hk ⟨hs1, hg, hP⟩
      simp only at hs1 hg hP
      subst hs1
      rw [gradientStep_fin hk (hf _) (hf _)]
      by_cases hb : bad k
      · left; exact ⟨hb, if_pos hb⟩
      · right
        refine ⟨hb, ?_⟩
        rw [if_neg hb]
        have hb1 : (F (nudged x dx k 1)).length = (F x).length := by
          by_contra h; exact hb (Or.inl h)
        have hb2 : (F (nudged x dx k (-1))).length = (F x).length := by
          by_contra h; exact hb (Or.inr h)
        have hH : max |x[k]| 1 * dx ≠ 0 := mul_ne_zero (ne_of_gt (lt_of_lt_of_le one_pos (le_max_right _ _))) hdx
        have hval : ∀ i < (F (nudged x dx k 1)).length, lowValue (Fl.exact K) ((F (nudged x dx k 1)).map .fin)
            ((F (nudged x dx k (-1))).map .fin) (.fin (max |x[k]| 1 * dx)) i =
            .ok (.fin (((F (nudged x dx k 1)).getD i 0 - (F (nudged x dx k (-1))).getD i 0) / (2 * (max |x.getD k 0| 1 * dx)))) := by
          intro i hi
          unfold lowValue
          rw [fl_get_map _ i hi, fl_get_map _ i (by omega)]
          simp only [Outcome.bind_ok]
          rw [getD_lt _ _ _ hi, getD_lt _ _ _ (by omega : i < (F (nudged x dx k (-1))).length), getD_lt _ _ _ hk]
          change Outcome.ok (Fl.div (Fl.div (Fl.sub (Fl.fin (F (nudged x dx k 1))[i]) (Fl.fin (F (nudged x dx k (-1)))[i]))
            (Fl.fin 2)) (Fl.fin (max |x[k]| 1 * dx))) = _
          rw [fl_sub_fin, fl_div_fin two_ne_zero, fl_div_fin hH, div_div]
        obtain ⟨g', hg', hgl, hg1, hg2⟩ := writeColumn_spec x.length _ k _ _ g hval hk (by rw [hb1]; exact hg)
        rw [hg']
        simp only [Outcome.bind_ok, Outcome.sat_ok]
        refine ⟨trivial, by rw [hgl, hb1], ?_⟩
        intro i hi j hj
        by_cases hjk : j = k
        · subst hjk; exact hg1 i (by omega)
        · rw [hg2 j (by omega) hjk i (by omega)]
          exact hP i hi j (by omega))
  unfold estimateGradient
  rw [hf x]
  simp only [ofUser, Outcome.bind_ok, List.length_map]
  change ((∃ j < x.length, bad j) ∧ (List.foldlM _ ((x.map Fl.fin, x.map Fl.fin), List.replicate ((F x).length * x.length) (Fl.fin 0)) _ >>= _) = _) ∨
    ((∀ j < x.length, ¬ bad j) ∧ ∃ g, (List.foldlM _ ((x.map Fl.fin, x.map Fl.fin), List.replicate ((F x).length * x.length) (Fl.fin 0)) _ >>= _) = _ ∧ _)
  rcases key with ⟨h1, h2⟩ | ⟨h1, s, h2, h3⟩
  · left; exact ⟨h1, by rw [h2]; rfl⟩
  · right; exact ⟨h1, s.2, by rw [h2]; rfl, h3.2⟩

/-- The step of `estimate_gradient_h` on finite data. -/
theorem gradientHStep_fin {f : List (Fl K) → User (List (Fl K))} {F : List K → List K}
    (hf : ∀ y : List K, f (y.map .fin) = .ok ((F y).map .fin)) {x : List K} {dx : K} {m j : Nat}
    (hj : j < x.length) (g : List (Fl K)) :
    gradientHStep (Fl.exact K) f (x.map .fin) (.fin dx) m (x.map .fin, g) j =
      if (F (nudged x dx j 1)).length ≠ m ∨ (F (nudged x dx j (-1))).length ≠ m ∨ (F (nudged x dx j 2)).length ≠ m ∨
        (F (nudged x dx j (-2))).length ≠ m ∨ (F (nudged x dx j 3)).length ≠ m ∨ (F (nudged x dx j (-3))).length ≠ m
      then .throws .invalidArgument
      else writeColumn x.length (F (nudged x dx j 1)).length j (highValue (Fl.exact K) ((F (nudged x dx j 1)).map .fin)
        ((F (nudged x dx j (-1))).map .fin) ((F (nudged x dx j 2)).map .fin) ((F (nudged x dx j (-2))).map .fin)
        ((F (nudged x dx j 3)).map .fin) ((F (nudged x dx j (-3))).map .fin) (.fin (max |x[j]| 1 * dx))) g >>=
        fun g => .ok (x.map .fin, g) := by
  unfold gradientHStep
  simp only [fl_get_map x j hj, Outcome.bind_ok, stepSize_fin]
  have e1 := fl_up x[j] 1 (max |x[j]| 1 * dx)
  have e2 := fl_down x[j] 1 (max |x[j]| 1 * dx)
  rw [one_mul] at e1 e2
  have m2 : (Fl.exact K).mul (.fin 2) (.fin (max |x[j]| 1 * dx)) = .fin (2 * (max |x[j]| 1 * dx)) := rfl
  have m3 : (Fl.exact K).mul (.fin 3) (.fin (max |x[j]| 1 * dx)) = .fin (3 * (max |x[j]| 1 * dx)) := rfl
  rw [e1, e2, m2, m3, fl_up, fl_up, fl_down, fl_down, ← one_mul (max |x[j]| 1 * dx)]
  simp only [fl_map_set x j _ hj, Outcome.bind_ok]
  simp only [one_mul (max |x[j]| 1 * dx)]
  have n1 := nudged_eq x dx j 1 hj
  rw [one_mul] at n1
  rw [← nudged_eq x dx j (-1) hj, ← nudged_eq x dx j 2 hj, ← nudged_eq x dx j (-2) hj,
    ← nudged_eq x dx j 3 hj, ← nudged_eq x dx j (-3) hj, ← n1]
  simp only [hf, ofUser, Outcome.bind_ok, List.length_map]
  rw [n1, fl_set_back x j _ hj]
  rfl

/-- **C55.** Layout and values of `estimate_gradient_h`: `std::invalid_argument` exactly when the size of the result
changes. -/
theorem C55_high_values {f : List (Fl K) → User (List (Fl K))} {F : List K → List K}
    (hf : ∀ y : List K, f (y.map .fin) = .ok ((F y).map .fin)) (x : List K) {dx : K} (hdx : dx ≠ 0) :
    let bad := fun j => ∃ d ∈ ([1, -1, 2, -2, 3, -3] : List K), (F (nudged x dx j d)).length ≠ (F x).length
    ((∃ j < x.length, bad j) ∧ estimateGradientH (Fl.exact K) f (x.map .fin) (.fin dx) = .throws .invalidArgument) ∨
    ((∀ j < x.length, ¬ bad j) ∧ ∃ g, estimateGradientH (Fl.exact K) f (x.map .fin) (.fin dx) = .ok g ∧
      g.length = (F x).length * x.length ∧
      ∀ i < (F x).length, ∀ j < x.length,
        let v := fun d : K => (F (nudged x dx j d)).getD i 0
        let h := max |x.getD j 0| 1 * dx
        g[j + i * x.length]? = some (.fin (
          3 / 2 * ((v 1 - v (-1)) / (2 * h)) - 3 / 5 * ((v 2 - v (-2)) / (4 * h)) + 1 / 10 * ((v 3 - v (-3)) / (6 * h))))) := by
  intro bad
  have hbad : ∀ j, bad j ↔ ((F (nudged x dx j 1)).length ≠ (F x).length ∨ (F (nudged x dx j (-1))).length ≠ (F x).length ∨
      (F (nudged x dx j 2)).length ≠ (F x).length ∨ (F (nudged x dx j (-2))).length ≠ (F x).length ∨
      (F (nudged x dx j 3)).length ≠ (F x).length ∨ (F (nudged x dx j (-3))).length ≠ (F x).length) := by
    intro j
    simp only [bad, List.mem_cons, List.not_mem_nil, or_false, exists_eq_or_imp, exists_eq_left]
  have key := range_foldlM_bad (e := .invalidArgument)
    (f := gradientHStep (Fl.exact K) f (x.map .fin) (.fin dx) (F x).length) bad
    (fun k s => s.1 = x.map Fl.fin ∧ s.2.length = (F x).length * x.length ∧
      ∀ i < (F x).length, ∀ j < k, s.2[j + i * x.length]? = some (.fin (
        3 / 2 * (((F (nudged x dx j 1)).getD i 0 - (F (nudged x dx j (-1))).getD i 0) / (2 * (max |x.getD j 0| 1 * dx))) -
        3 / 5 * (((F (nudged x dx j 2)).getD i 0 - (F (nudged x dx j (-2))).getD i 0) / (4 * (max |x.getD j 0| 1 * dx))) +
        1 / 10 * (((F (nudged x dx j 3)).getD i 0 - (F (nudged x dx j (-3))).getD i 0) / (6 * (max |x.getD j 0| 1 * dx))))))
    x.length (x.map .fin, List.replicate ((F x).length * x.length) (.fin 0))
    ⟨rfl, by simp, by omega⟩ (by
      rintro k ⟨s1, g⟩ hk ⟨hs1, hg, hP⟩
      simp only at hs1 hg hP
      subst hs1
      rw [gradientHStep_fin hf hk]
      by_cases hb : bad k
      · left; exact ⟨hb, if_pos ((hbad k).mp hb)⟩
      · right
        refine ⟨hb, ?_⟩
        have hb' := mt (hbad k).mpr hb
        rw [if_neg hb']
        push Not at hb'
        obtain ⟨b1, b2, b3, b4, b5, b6⟩ := hb'
        have hH : max |x[k]| 1 * dx ≠ 0 := mul_ne_zero (ne_of_gt (lt_of_lt_of_le one_pos (le_max_right _ _))) hdx
        have hval : ∀ i < (F (nudged x dx k 1)).length, highValue (Fl.exact K) ((F (nudged x dx k 1)).map .fin)
            ((F (nudged x dx k (-1))).map .fin) ((F (nudged x dx k 2)).map .fin) ((F (nudged x dx k (-2))).map .fin)
            ((F (nudged x dx k 3)).map .fin) ((F (nudged x dx k (-3))).map .fin) (.fin (max |x[k]| 1 * dx)) i =
            .ok (.fin (
              3 / 2 * (((F (nudged x dx k 1)).getD i 0 - (F (nudged x dx k (-1))).getD i 0) / (2 * (max |x.getD k 0| 1 * dx))) -
              3 / 5 * (((F (nudged x dx k 2)).getD i 0 - (F (nudged x dx k (-2))).getD i 0) / (4 * (max |x.getD k 0| 1 * dx))) +
              1 / 10 * (((F (nudged x dx k 3)).getD i 0 - (F (nudged x dx k (-3))).getD i 0) / (6 * (max |x.getD k 0| 1 * dx))))) := by
          intro i hi
          unfold highValue
          rw [getD_lt _ _ _ hk]
          generalize max |x[k]| 1 * dx = H at hH
          rw [getD_lt _ i _ hi, getD_lt _ i _ (show i < (F (nudged x dx k (-1))).length by omega),
            getD_lt _ i _ (show i < (F (nudged x dx k 2)).length by omega),
            getD_lt _ i _ (show i < (F (nudged x dx k (-2))).length by omega),
            getD_lt _ i _ (show i < (F (nudged x dx k 3)).length by omega),
            getD_lt _ i _ (show i < (F (nudged x dx k (-3))).length by omega),
            fl_get_map _ i hi, fl_get_map _ i (show i < (F (nudged x dx k (-1))).length by omega),
            fl_get_map _ i (show i < (F (nudged x dx k 2)).length by omega),
            fl_get_map _ i (show i < (F (nudged x dx k (-2))).length by omega),
            fl_get_map _ i (show i < (F (nudged x dx k 3)).length by omega),
            fl_get_map _ i (show i < (F (nudged x dx k (-3))).length by omega)]
          simp only [Outcome.bind_ok]
          simp only [show (Fl.exact K).sub = Fl.sub from rfl, show (Fl.exact K).add = Fl.add from rfl,
            show (Fl.exact K).mul = Fl.mul from rfl, show (Fl.exact K).div = Fl.div from rfl]
          rw [fl_sub_fin, fl_sub_fin, fl_sub_fin, fl_div_fin two_ne_zero, fl_div_fin (by norm_num), fl_div_fin (by norm_num)]
          simp only [Fl.mul]
          rw [fl_sub_fin]
          simp only [Fl.add]
          rw [fl_div_fin (mul_ne_zero (by norm_num) hH)]
          congr 2
          field_simp
          ring
        obtain ⟨g', hg', hgl, hg1, hg2⟩ := writeColumn_spec x.length _ k _ _ g hval hk (by rw [b1]; exact hg)
        rw [hg']
        simp only [Outcome.bind_ok, Outcome.sat_ok]
        refine ⟨trivial, by rw [hgl, b1], ?_⟩
        intro i hi j hj
        by_cases hjk : j = k
        · subst hjk; exact hg1 i (by omega)
        · rw [hg2 j (by omega) hjk i (by omega)]
          exact hP i hi j (by omega))
  unfold estimateGradientH
  rw [hf x]
  simp only [ofUser, Outcome.bind_ok, List.length_map]
  change ((∃ j < x.length, bad j) ∧ (List.foldlM _ (x.map Fl.fin, List.replicate ((F x).length * x.length) (Fl.fin 0)) _ >>= _) = _) ∨
    ((∀ j < x.length, ¬ bad j) ∧ ∃ g, (List.foldlM _ (x.map Fl.fin, List.replicate ((F x).length * x.length) (Fl.fin 0)) _ >>= _) = _ ∧ _)
  rcases key with ⟨h1, h2⟩ | ⟨h1, s, h2, h3⟩
  · left; exact ⟨h1, by rw [h2]; rfl⟩
  · right; exact ⟨h1, s.2, by rw [h2]; rfl, h3.2⟩

/-- As a function of the variable `j` alone (the others fixed at `x`), component `i` of `F` is the polynomial `P i j`. -/
def PolyAround (F : List K → List K) (x : List K) (P : Nat → Nat → Polynomial K) : Prop :=
  ∀ j < x.length, ∀ t : K, F (x.set j t) = (List.range (F x).length).map fun i => (P i j).eval t

theorem poly_nudged {F : List K → List K} {x : List K} {P : Nat → Nat → Polynomial K} (hP : PolyAround F x P) {j : Nat}
    (hj : j < x.length) (dx d : K) {i : Nat} (hi : i < (F x).length) :
    (F (nudged x dx j d)).length = (F x).length ∧
    (F (nudged x dx j d)).getD i 0 = (P i j).eval (x[j] + d * (max |x[j]| 1 * dx)) := by
  rw [nudged_eq _ _ _ _ hj, hP j hj]
  refine ⟨by simp, ?_⟩
  rw [getD_lt _ _ _ (by simpa using hi)]
  simp

theorem poly_low {p : Polynomial K} (hp : p.natDegree ≤ 2) (x : K) {h : K} (hh : h ≠ 0) :
    (p.eval (x + 1 * h) - p.eval (x + -1 * h)) / (2 * h) = p.derivative.eval x := by
  rw [Polynomial.eval_eq_sum_range' (show p.natDegree < 3 by omega),
    Polynomial.eval_eq_sum_range' (show p.natDegree < 3 by omega),
    Polynomial.eval_eq_sum_range' (show p.derivative.natDegree < 2 by
      have := Polynomial.natDegree_derivative_le p; omega)]
  simp only [Finset.sum_range_succ, Finset.sum_range_zero, Polynomial.coeff_derivative]
  field_simp
  push_cast
  ring

theorem poly_high {p : Polynomial K} (hp : p.natDegree ≤ 6) (x : K) {h : K} (hh : h ≠ 0) :
    3 / 2 * ((p.eval (x + 1 * h) - p.eval (x + -1 * h)) / (2 * h)) - 3 / 5 * ((p.eval (x + 2 * h) - p.eval (x + -2 * h)) / (4 * h)) +
      1 / 10 * ((p.eval (x + 3 * h) - p.eval (x + -3 * h)) / (6 * h)) = p.derivative.eval x := by
  have e : ∀ t : K, p.eval t = _ := fun t => Polynomial.eval_eq_sum_range' (show p.natDegree < 7 by omega) t
  rw [e (x + 1 * h), e (x + -1 * h), e (x + 2 * h), e (x + -2 * h), e (x + 3 * h), e (x + -3 * h),
    Polynomial.eval_eq_sum_range' (show p.derivative.natDegree < 6 by
      have := Polynomial.natDegree_derivative_le p; omega)]
  simp only [Finset.sum_range_succ, Finset.sum_range_zero, Polynomial.coeff_derivative]
  field_simp
  push_cast
  ring

/-- **C55.** `estimate_gradient` returns the exact gradient of functions of degree at most two in each variable. -/
theorem C55_low_exact {f : List (Fl K) → User (List (Fl K))} {F : List K → List K}
    (hf : ∀ y : List K, f (y.map .fin) = .ok ((F y).map .fin)) (x : List K) {dx : K} (hdx : dx ≠ 0)
    {P : Nat → Nat → Polynomial K} (hP : PolyAround F x P) (hdeg : ∀ i j, (P i j).natDegree ≤ 2) :
    ∃ g, estimateGradient (Fl.exact K) f (x.map .fin) (.fin dx) = .ok g ∧ g.length = (F x).length * x.length ∧
      ∀ (i j : Nat) (xj : K), i < (F x).length → x[j]? = some xj →
        g[j + i * x.length]? = some (.fin ((P i j).derivative.eval xj)) := by
  have hlen : ∀ j < x.length, ∀ d, (F (nudged x dx j d)).length = (F x).length := by
    intro j hj d; rw [nudged_eq _ _ _ _ hj, hP j hj]; simp
  rcases C55_low_values hf x hdx with ⟨⟨j, hj, hb⟩, -⟩ | ⟨-, g, h1, h2, h3⟩
  · exact absurd hb (by rw [hlen j hj, hlen j hj]; simp)
  · refine ⟨g, h1, h2, fun i j xj hi hxj => ?_⟩
    obtain ⟨hj, rfl⟩ := List.getElem?_eq_some_iff.mp hxj
    rw [h3 i hi j hj, (poly_nudged hP hj dx 1 hi).2, (poly_nudged hP hj dx (-1) hi).2, getD_lt _ _ _ hj,
      poly_low (hdeg i j) _ (mul_ne_zero (ne_of_gt (lt_of_lt_of_le one_pos (le_max_right _ _))) hdx)]

/-- **C55.** `estimate_gradient_h` returns the exact gradient of functions of degree at most six in each variable. -/
theorem C55_high_exact {f : List (Fl K) → User (List (Fl K))} {F : List K → List K}
    (hf : ∀ y : List K, f (y.map .fin) = .ok ((F y).map .fin)) (x : List K) {dx : K} (hdx : dx ≠ 0)
    {P : Nat → Nat → Polynomial K} (hP : PolyAround F x P) (hdeg : ∀ i j, (P i j).natDegree ≤ 6) :
    ∃ g, estimateGradientH (Fl.exact K) f (x.map .fin) (.fin dx) = .ok g ∧ g.length = (F x).length * x.length ∧
      ∀ (i j : Nat) (xj : K), i < (F x).length → x[j]? = some xj →
        g[j + i * x.length]? = some (.fin ((P i j).derivative.eval xj)) := by
  have hlen : ∀ j < x.length, ∀ d, (F (nudged x dx j d)).length = (F x).length := by
    intro j hj d; rw [nudged_eq _ _ _ _ hj, hP j hj]; simp
  rcases C55_high_values hf x hdx with ⟨⟨j, hj, d, hd, hb⟩, -⟩ | ⟨-, g, h1, h2, h3⟩
  · exact absurd hb (by rw [hlen j hj]; simp)
  · refine ⟨g, h1, h2, fun i j xj hi hxj => ?_⟩
    obtain ⟨hj, rfl⟩ := List.getElem?_eq_some_iff.mp hxj
    have h4 := h3 i hi j hj
    simp only at h4
    rw [h4, (poly_nudged hP hj dx 1 hi).2, (poly_nudged hP hj dx (-1) hi).2, (poly_nudged hP hj dx 2 hi).2,
      (poly_nudged hP hj dx (-2) hi).2, (poly_nudged hP hj dx 3 hi).2, (poly_nudged hP hj dx (-3) hi).2, getD_lt _ _ _ hj,
      poly_high (hdeg i j) _ (mul_ne_zero (ne_of_gt (lt_of_lt_of_le one_pos (le_max_right _ _))) hdx)]

end

/-! ## C56 -/

section
variable {K : Type} [Field K] [LinearOrder K]

/-- The point `estimate_sparsity` evaluates for variable `j`. -/
def probed (op : Fl.Ops K) (x : List (Fl K)) (dx : Fl K) (j : Nat) : List (Fl K) :=
  x.set j (op.add (x.getD j .nan) (op.mul (if Fl.lt (Fl.abs (x.getD j .nan)) op.one then op.one else Fl.abs (x.getD j .nan)) dx))

theorem pairLt_swo (l : List (Nat × Nat)) : swoOn pairLt l = true := by
  refine swoOn_of_key (fun q : Nat × Nat => toLex q) (fun a _ b _ => ?_)
  rw [pairLt_iff, Prod.Lex.lt_iff]
  rfl

/-- **C56.** For a function that never throws, in any arithmetic, with NaN and infinities: if the size of the result
changes, `std::invalid_argument`; otherwise a pattern that contains `(i, j)` exactly when the value of component `i` at
the point probed for variable `j` is not equal (IEEE) to its value at `x`, and that `problem` accepts. -/
theorem C56_sparsity {srt : (Nat × Nat → Nat × Nat → Bool) → List (Nat × Nat) → List (Nat × Nat)} (hs : ValidSort srt)
    (op : Fl.Ops K) {f : List (Fl K) → User (List (Fl K))} {F : List (Fl K) → List (Fl K)} (hf : ∀ y, f y = .ok (F y))
    (x : List (Fl K)) (dx : Fl K) :
    let bad := fun j => (F (probed op x dx j)).length ≠ (F x).length
    ((∃ j < x.length, bad j) ∧ estimateSparsity srt op f x dx = .throws .invalidArgument) ∨
    ((∀ j < x.length, ¬ bad j) ∧ ∃ l, estimateSparsity srt op f x dx = .ok l ∧
      (∀ i j : Nat, (i, j) ∈ l ↔ j < x.length ∧ ∃ a b, (F (probed op x dx j))[i]? = some a ∧ (F x)[i]? = some b ∧ Fl.eq a b = false) ∧
      l.Pairwise LexLt ∧ checkGradientSparsity (F x).length x.length l = .ok ()) := by
  intro bad
  have key := range_foldlM_bad (e := .invalidArgument) (f := sparsityStep op f x dx (F x)) bad
    (fun k s => s.1 = x ∧ s.2.Nodup ∧ ∀ i j : Nat, (i, j) ∈ s.2 ↔ j < k ∧
      ∃ a b, (F (probed op x dx j))[i]? = some a ∧ (F x)[i]? = some b ∧ Fl.eq a b = false)
    x.length (x, []) ⟨rfl, by simp, by simp⟩ (by
      rintro k ⟨s1, r⟩ hk ⟨hs1, hn, hP⟩
      simp only at hs1 hn hP
      subst hs1
      unfold sparsityStep
      rw [Outcome.get_of_lt hk]
      simp only [Outcome.bind_ok]
      rw [Outcome.set_of_lt hk]
      simp only [Outcome.bind_ok]
      have hpr : s1.set k (op.add s1[k] (stepSize op s1[k] dx)) = probed op s1 dx k := by
        unfold probed stepSize Fl.stdMax
        rw [getD_lt _ _ _ hk]
      rw [hpr, hf]
      simp only [ofUser, Outcome.bind_ok]
      by_cases hb : bad k
      · left; exact ⟨hb, if_pos hb⟩
      · right
        refine ⟨hb, ?_⟩
        rw [if_neg hb]
        have hb' : (F (probed op s1 dx k)).length = (F s1).length := not_not.mp hb
        have inner := Outcome.range_sat (f := pushChanged (F s1) (F (probed op s1 dx k)) k)
          (fun n r' => r'.Nodup ∧ ∀ i j : Nat, (i, j) ∈ r' ↔ (i, j) ∈ r ∨ (j = k ∧ i < n ∧
            ∃ a b, (F (probed op s1 dx k))[i]? = some a ∧ (F s1)[i]? = some b ∧ Fl.eq a b = false))
          (F (probed op s1 dx k)).length r ⟨hn, by simp⟩ (by
            rintro n r' hn' ⟨h1, h2⟩
            unfold pushChanged
            rw [Outcome.get_of_lt hn', Outcome.get_of_lt (by omega : n < (F s1).length)]
            simp only [Outcome.bind_ok, Outcome.sat_ok]
            have hga : (F (probed op s1 dx k))[n]? = some (F (probed op s1 dx k))[n] := List.getElem?_eq_getElem hn'
            have hgb : (F s1)[n]? = some ((F s1)[n]'(by omega)) := List.getElem?_eq_getElem (by omega)
            have hnew : (n, k) ∉ r' := by
              intro hm
              rcases (h2 n k).mp hm with h | ⟨-, h, -⟩
              · have := ((hP n k).mp h).1; omega
              · omega
            by_cases heq : Fl.eq (F (probed op s1 dx k))[n] ((F s1)[n]'(by omega)) = true
            · rw [heq]
              simp only [Bool.not_true, Bool.false_eq_true, if_false]
              refine ⟨h1, fun i j => ?_⟩
              rw [h2 i j]
              constructor
              · rintro (h | ⟨h3, h4, h5⟩)
                · exact Or.inl h
                · exact Or.inr ⟨h3, by omega, h5⟩
              · rintro (h | ⟨h3, h4, a, b, ha, hb, hab⟩)
                · exact Or.inl h
                · rcases Nat.lt_succ_iff_lt_or_eq.mp h4 with h4 | rfl
                  · exact Or.inr ⟨h3, h4, a, b, ha, hb, hab⟩
                  · rw [hga] at ha; rw [hgb] at hb; cases ha; cases hb
                    rw [heq] at hab; cases hab
            · rw [Bool.not_eq_true] at heq
              rw [heq]
              simp only [Bool.not_false, if_true]
              refine ⟨List.nodup_append.mpr ⟨h1, by simp, ?_⟩, fun i j => ?_⟩
              · intro a ha b hb
                rw [List.mem_singleton] at hb
                subst hb; rintro rfl; exact hnew ha
              · rw [List.mem_append, List.mem_singleton, h2 i j]
                constructor
                · rintro ((h | ⟨h3, h4, h5⟩) | h)
                  · exact Or.inl h
                  · exact Or.inr ⟨h3, by omega, h5⟩
                  · cases h; exact Or.inr ⟨rfl, by omega, _, _, hga, hgb, heq⟩
                · rintro (h | ⟨h3, h4, h5⟩)
                  · exact Or.inl (Or.inl h)
                  · rcases Nat.lt_succ_iff_lt_or_eq.mp h4 with h4 | rfl
                    · exact Or.inl (Or.inr ⟨h3, h4, h5⟩)
                    · exact Or.inr (by rw [h3]))
        obtain ⟨r', hr', hn', hm'⟩ := inner
        rw [hr']
        simp only [Outcome.bind_ok]
        have hback : (probed op s1 dx k).set k s1[k] = s1 := by
          unfold probed; rw [List.set_set, List.set_getElem_self]
        rw [Outcome.set_of_lt (by unfold probed; simpa using hk), hback]
        simp only [Outcome.bind_ok, Outcome.sat_ok]
        refine ⟨trivial, hn', fun i j => ?_⟩
        rw [hm' i j, hP i j]
        constructor
        · rintro (⟨h1, h2⟩ | ⟨rfl, h1, h2⟩)
          · exact ⟨by omega, h2⟩
          · exact ⟨by omega, h2⟩
        · rintro ⟨h1, h2⟩
          rcases Nat.lt_succ_iff_lt_or_eq.mp h1 with h1 | rfl
          · exact Or.inl ⟨h1, h2⟩
          · obtain ⟨a, b, ha, hrest⟩ := h2
            exact Or.inr ⟨rfl, (List.getElem?_eq_some_iff.mp ha).1, a, b, ha, hrest⟩)
  unfold estimateSparsity
  rw [hf x]
  simp only [ofUser, Outcome.bind_ok]
  rcases key with ⟨h1, h2⟩ | ⟨h1, s, h2, h3, h4, h5⟩
  · left; exact ⟨h1, by rw [h2]; rfl⟩
  · right
    rw [h2]
    simp only [Outcome.bind_ok]
    obtain ⟨l, hl, hsort⟩ := stdSort_sat hs (pairLt_swo s.2)
    have hmem : ∀ q, q ∈ l ↔ q ∈ s.2 := fun q => hsort.perm.mem_iff
    have hpw : l.Pairwise LexLt := by
      have hnd : l.Nodup := hsort.perm.nodup_iff.mpr h4
      refine List.Pairwise.imp_of_mem (R := fun a b => pairLt b a = false ∧ a ≠ b) ?_ (hsort.sorted.and hnd)
      rintro a b - - ⟨hab, hne⟩
      have : ¬ LexLt b a := by rw [← pairLt_iff, hab]; simp
      obtain ⟨a1, a2⟩ := a
      obtain ⟨b1, b2⟩ := b
      simp only [LexLt, ne_eq, Prod.mk.injEq] at *
      omega
    refine ⟨h1, l, hl, fun i j => by rw [hmem, h5], hpw, ?_⟩
    rw [(chk_grad _ _ _).ok_iff]
    refine ⟨fun q hq => ?_, hpw⟩
    obtain ⟨hj, a, b, -, hb, -⟩ := (h5 q.1 q.2).mp ((hmem q).mp hq)
    exact ⟨(List.getElem?_eq_some_iff.mp hb).1, hj⟩

/-- **C56.** An exception of the function at `x` is passed on. -/
theorem C56_throws (srt : (Nat × Nat → Nat × Nat → Bool) → List (Nat × Nat) → List (Nat × Nat)) (op : Fl.Ops K)
    {f : List (Fl K) → User (List (Fl K))} {x : List (Fl K)} {e : Exn} (h : f x = .error e) (dx : Fl K) :
    estimateSparsity srt op f x dx = .throws e ∧ estimateGradient op f x dx = .throws e ∧
      estimateGradientH op f x dx = .throws e := by
  unfold estimateSparsity estimateGradient estimateGradientH
  rw [h]
  exact ⟨rfl, rfl, rfl⟩

end

/-! ## Examples -/

/-- `(x0², x0 x1)` -/
def gradDemo : List (Fl ℚ) → User (List (Fl ℚ))
  | [a, b] => .ok [Fl.mul a a, Fl.mul a b]
  | _ => .error (.user 1)

example : estimateGradient (Fl.exact ℚ) gradDemo [.fin 3, .fin (-5)] (.fin (1/100)) = .ok [.fin 6, .fin 0, .fin (-5), .fin 3] ∧
    estimateGradientH (Fl.exact ℚ) gradDemo [.fin 3, .fin (-5)] (.fin (1/100)) = .ok [.fin 6, .fin 0, .fin (-5), .fin 3] ∧
    estimateSparsity insSort (Fl.exact ℚ) gradDemo [.fin 3, .fin (-5)] (.fin (1/100)) = .ok [(0, 0), (1, 0), (1, 1)] := by
  decide +kernel

/-- The same function on rationals, of degree two in each variable. -/
def gradDemoQ : List ℚ → List ℚ
  | [a, b] => [a * a, a * b]
  | _ => []

example : PolyAround gradDemoQ [3, -5] (fun i j =>
    if i = 0 then if j = 0 then Polynomial.X ^ 2 else Polynomial.C 9
    else if j = 0 then Polynomial.C (-5) * Polynomial.X else Polynomial.C 3 * Polynomial.X) := by
  intro j hj t
  have : j = 0 ∨ j = 1 := by simp at hj; omega
  rcases this with rfl | rfl
  · simp [gradDemoQ, List.range_succ]; constructor <;> ring
  · simp [gradDemoQ, List.range_succ]; norm_num

end Verif.Props
