import Verif.Model.Decompose

/-!
# Property C09: decomposition of objectives
-/

set_option autoImplicit false

namespace Verif.Props

open Verif Outcome Dec

/-! ## C09 -/

section c09
variable {K : Type} [Field K] [LinearOrder K] [IsStrictOrderedRing K]

/-- C09: the call throws exactly when the three vectors do not have the same non-zero length or the method is
unknown. For all inputs, NaN and infinities included, and any arithmetic. -/
theorem C09_throws_iff (op : Fl.Ops K) (sq : Fl K → Fl K) (eps theta : Fl K) (f w z : List (Fl K))
    (method : String) :
    (decomposeObjectives op sq eps theta f w z method = .throws .invalidArgument ↔
      ¬ (w.length = f.length ∧ z.length = f.length ∧ f ≠ [] ∧
         (method = "weighted" ∨ method = "tchebycheff" ∨ method = "bi"))) ∧
    (w.length = f.length → z.length = f.length → f ≠ [] →
      (method = "weighted" ∨ method = "tchebycheff" ∨ method = "bi") →
      ∃ x, decomposeObjectives op sq eps theta f w z method = .ok [x]) := by
  have hw : w.length = f.length → (weightedLoop op f w).Sat (fun _ => True) := by
    intro h
    refine range_sat (fun _ _ => True) _ _ trivial ?_
    intro i s hi _
    rw [get_of_lt (by omega), bind_ok, get_of_lt (by omega), bind_ok, sat_ok]
    trivial
  have ht : w.length = f.length → z.length = f.length →
      (tchebLoop op eps f w z).Sat (fun _ => True) := by
    intro h h'
    refine range_sat (fun _ _ => True) _ _ trivial ?_
    intro i s hi _
    rw [get_of_lt (by omega), bind_ok]
    simp only []
    rw [get_of_lt (by omega), bind_ok, get_of_lt (by omega), bind_ok, sat_ok]
    trivial
  have hb : w.length = f.length → z.length = f.length →
      (biLoop op sq theta f w z).Sat (fun _ => True) := by
    intro h h'
    unfold biLoop
    refine (range_sat (fun _ _ => True) _ _ trivial ?_).bind ?_
    · intro i s hi _
      rw [get_of_lt (by omega), bind_ok, get_of_lt (by omega), bind_ok, get_of_lt (by omega), bind_ok, sat_ok]
      trivial
    · intro s _
      refine (range_sat (fun _ _ => True) _ _ trivial ?_).bind ?_
      · intro i s hi _
        rw [get_of_lt (by omega), bind_ok, get_of_lt (by omega), bind_ok, get_of_lt (by omega), bind_ok, sat_ok]
        trivial
      · intro d _
        rw [sat_ok]; trivial
  have key : w.length = f.length → z.length = f.length → f ≠ [] →
      (method = "weighted" ∨ method = "tchebycheff" ∨ method = "bi") →
      ∃ x, decomposeObjectives op sq eps theta f w z method = .ok [x] := by
    intro h1 h2 h3 h4
    unfold decomposeObjectives
    rw [if_neg (by omega), if_neg (by omega), if_neg (by rwa [List.length_eq_zero_iff])]
    rcases h4 with rfl | rfl | rfl
    · obtain ⟨x, hx, _⟩ := hw h1
      exact ⟨x, by simp [hx]⟩
    · obtain ⟨x, hx, _⟩ := ht h1 h2
      exact ⟨x, by simp [hx]⟩
    · obtain ⟨x, hx, _⟩ := hb h1 h2
      exact ⟨x, by simp [hx]⟩
  refine ⟨⟨?_, ?_⟩, key⟩
  · rintro h ⟨h1, h2, h3, h4⟩
    obtain ⟨x, hx⟩ := key h1 h2 h3 h4
    rw [hx] at h; exact absurd h (by simp)
  · intro h
    unfold decomposeObjectives
    by_cases h1 : w.length = f.length
    · by_cases h2 : z.length = f.length
      · by_cases h3 : f = []
        · subst h3; simp at h1 h2; simp [h1, h2]
        · have h4 : ¬ (method = "weighted" ∨ method = "tchebycheff" ∨ method = "bi") :=
            fun h4 => h ⟨h1, h2, h3, h4⟩
          push Not at h4
          rw [if_neg (by omega), if_neg (by omega), if_neg (by rwa [List.length_eq_zero_iff]),
            if_neg h4.1, if_neg h4.2.1, if_neg h4.2.2]
      · rw [if_neg (by omega), if_pos h2]
    · rw [if_pos h1]

/-- partial sums of the weighted loop -/
private def wAcc (rnd : K → K) (f w : List K) : Nat → K
  | 0 => 0
  | m + 1 => rnd (wAcc rnd f w m + rnd (w.getD m 0 * f.getD m 0))

private theorem getElem?_fin (l : List K) (i : Nat) (h : i < l.length) :
    Outcome.get (l.map Fl.fin) i = .ok (.fin (l.getD i 0)) := by
  rw [get_eq_ok_iff, List.getElem?_map, List.getElem?_eq_getElem h]
  simp [List.getD, h]

private theorem weighted_eq (rnd : K → K) (f w : List K) (h : w.length = f.length) :
    weightedLoop (Fl.rounded K rnd) (f.map Fl.fin) (w.map Fl.fin) = .ok (.fin (wAcc rnd f w f.length)) := by
  have : (weightedLoop (Fl.rounded K rnd) (f.map Fl.fin) (w.map Fl.fin)).Sat
      (fun r => r = .fin (wAcc rnd f w (f.map Fl.fin).length)) := by
    refine range_sat (fun m r => r = Fl.fin (wAcc rnd f w m)) _ _ rfl ?_
    rintro i s hi rfl
    rw [List.length_map] at hi
    rw [getElem?_fin w i (by omega), bind_ok, getElem?_fin f i hi, bind_ok, sat_ok]
    rfl
  obtain ⟨r, h1, h2⟩ := this
  rw [h1, h2, List.length_map]

/-- C09, weighted: monotone for non-negative weights, for exact arithmetic (`rnd = id`) and for arithmetic
rounded by any monotone function. -/
theorem C09_weighted_monotone (rnd : K → K) (hr : Monotone rnd) (sq : Fl K → Fl K) (eps theta : Fl K)
    (a b w z : List K) (hne : a ≠ []) (hw : w.length = a.length) (hz : z.length = a.length)
    (hpos : ∀ x ∈ w, 0 ≤ x) (hab : List.Forall₂ (· ≤ ·) a b) :
    ∃ x y : K,
      decomposeObjectives (Fl.rounded K rnd) sq eps theta (a.map .fin) (w.map .fin) (z.map .fin)
        "weighted" = .ok [.fin x] ∧
      decomposeObjectives (Fl.rounded K rnd) sq eps theta (b.map .fin) (w.map .fin) (z.map .fin)
        "weighted" = .ok [.fin y] ∧ x ≤ y := by
  have hl := hab.length_eq
  have key : ∀ f : List K, f.length = a.length →
      decomposeObjectives (Fl.rounded K rnd) sq eps theta (f.map .fin) (w.map .fin) (z.map .fin)
        "weighted" = .ok [.fin (wAcc rnd f w f.length)] := by
    intro f hf
    have h0 : f.length ≠ 0 := by rw [hf]; simpa using hne
    unfold decomposeObjectives
    simp only [List.length_map]
    rw [if_neg (by omega), if_neg (by omega), if_neg h0, if_pos trivial, weighted_eq rnd f w (by omega)]
    rfl
  refine ⟨_, _, key a rfl, key b hl.symm, ?_⟩
  rw [← hl]
  have : ∀ m, m ≤ a.length → wAcc rnd a w m ≤ wAcc rnd b w m := by
    intro m
    induction m with
    | zero => intro _; exact le_refl _
    | succ m ih =>
      intro hm
      have h1 := ih (by omega)
      unfold wAcc
      apply hr
      apply add_le_add h1
      apply hr
      apply mul_le_mul_of_nonneg_left
      · have := List.forall₂_iff_get.mp hab
        have := this.2 m (by omega) (by omega)
        simp only [List.get_eq_getElem] at this
        simp only [List.getD]
        rw [List.getElem?_eq_getElem (by omega : m < a.length),
          List.getElem?_eq_getElem (by omega : m < b.length)]
        exact this
      · simp only [List.getD]
        rw [List.getElem?_eq_getElem (by omega : m < w.length)]
        exact hpos _ (List.getElem_mem _)
  exact this _ le_rfl

/-- C09: in exact arithmetic the weighted decomposition is the scalar product. -/
theorem C09_weighted_value (sq : Fl K → Fl K) (eps theta : Fl K)
    (f w z : List K) (hne : f ≠ []) (hw : w.length = f.length) (hz : z.length = f.length) :
    decomposeObjectives (Fl.exact K) sq eps theta (f.map .fin) (w.map .fin) (z.map .fin)
        "weighted" = .ok [.fin (List.zipWith (· * ·) w f).sum] := by
  have hpost : ∀ x : Fl K, Fl.post id x = x := by intro x; cases x <;> rfl
  have e : Fl.exact K = Fl.rounded K id := by
    unfold Fl.exact Fl.rounded
    congr 1 <;> (funext x y; exact (hpost _).symm)
  have h0 : f.length ≠ 0 := by simpa using hne
  unfold decomposeObjectives
  simp only [List.length_map]
  rw [if_neg (by omega), if_neg (by omega), if_neg h0, if_pos trivial, e, weighted_eq id f w hw, bind_ok]
  have : ∀ m, m ≤ f.length → wAcc id f w m = ((List.zipWith (· * ·) w f).take m).sum := by
    intro m
    induction m with
    | zero => intro _; simp [wAcc]
    | succ m ih =>
      intro hm
      rw [wAcc, ih (by omega), List.take_add_one, List.getElem?_eq_getElem (by simp; omega)]
      simp [List.getElem?_eq_getElem (by omega : m < f.length), List.getElem?_eq_getElem (by omega : m < w.length)]
  rw [this _ le_rfl, List.take_of_length_le (by simp)]

/-- partial maxima of the Tchebycheff loop -/
private def tAcc (rnd : K → K) (eps : K) (f w z : List K) : Nat → K
  | 0 => 0
  | m + 1 =>
    let t := rnd ((if w.getD m 0 = 0 then eps else w.getD m 0) * |rnd (f.getD m 0 - z.getD m 0)|)
    if t > tAcc rnd eps f w z m then t else tAcc rnd eps f w z m

private theorem abs_eq (a : K) : (if a < 0 then -a else a) = |a| := by
  split
  · rename_i h; rw [abs_of_neg h]
  · rename_i h; rw [abs_of_nonneg (not_lt.mp h)]

private theorem tcheb_eq (rnd : K → K) (eps : K) (f w z : List K) (h : w.length = f.length)
    (h' : z.length = f.length) :
    tchebLoop (Fl.rounded K rnd) (.fin eps) (f.map Fl.fin) (w.map Fl.fin) (z.map Fl.fin) =
      .ok (.fin (tAcc rnd eps f w z f.length)) := by
  have : (tchebLoop (Fl.rounded K rnd) (.fin eps) (f.map Fl.fin) (w.map Fl.fin) (z.map Fl.fin)).Sat
      (fun r => r = .fin (tAcc rnd eps f w z (f.map Fl.fin).length)) := by
    refine range_sat (fun m r => r = Fl.fin (tAcc rnd eps f w z m)) _ _ rfl ?_
    rintro i s hi rfl
    rw [List.length_map] at hi
    rw [getElem?_fin w i (by omega), bind_ok]
    simp only []
    rw [getElem?_fin f i hi, bind_ok, getElem?_fin z i (by omega), bind_ok, sat_ok, tAcc]
    have e1 : (if Fl.eq (Fl.fin (w.getD i 0)) (Fl.rounded K rnd).zero = true then (Fl.fin eps : Fl K)
        else Fl.fin (w.getD i 0)) = Fl.fin (if w.getD i 0 = 0 then eps else w.getD i 0) := by
      simp only [Fl.rounded, Fl.eq, decide_eq_true_eq]
      split <;> rfl
    rw [e1]
    have e2 : (Fl.rounded K rnd).sub (Fl.fin (f.getD i 0)) (Fl.fin (z.getD i 0)) =
        Fl.fin (rnd (f.getD i 0 - z.getD i 0)) := by
      simp [Fl.rounded, Fl.sub, Fl.neg, Fl.add, Fl.post, sub_eq_add_neg]
    rw [e2, Fl.abs, abs_eq]
    simp only [Fl.rounded, Fl.mul, Fl.post, Fl.gt, Fl.lt, decide_eq_true_eq, gt_iff_lt]
    split <;> split <;> rfl
  obtain ⟨r, h1, h2⟩ := this
  rw [h1, h2, List.length_map]

private theorem tcheb_call (rnd : K → K) (sq : Fl K → Fl K) (eps : K) (theta : Fl K) (f w z : List K)
    (hne : f ≠ []) (hw : w.length = f.length) (hz : z.length = f.length) :
    decomposeObjectives (Fl.rounded K rnd) sq (.fin eps) theta (f.map .fin) (w.map .fin) (z.map .fin)
        "tchebycheff" = .ok [.fin (tAcc rnd eps f w z f.length)] := by
  have h0 : f.length ≠ 0 := by simpa using hne
  unfold decomposeObjectives
  simp only [List.length_map]
  rw [if_neg (by omega), if_neg (by omega), if_neg h0, if_neg (by decide), if_pos trivial,
    tcheb_eq rnd eps f w z hw hz]
  rfl

/-- C09, Tchebycheff: monotone for non-negative weights on the vectors above the reference point, for exact
arithmetic and for arithmetic rounded by any monotone function that keeps zero. -/
theorem C09_tchebycheff_monotone (rnd : K → K) (hr : Monotone rnd) (hr0 : rnd 0 = 0) (sq : Fl K → Fl K)
    (eps : K) (heps : 0 ≤ eps) (theta : Fl K)
    (a b w z : List K) (hne : a ≠ []) (hw : w.length = a.length)
    (hpos : ∀ x ∈ w, 0 ≤ x) (hza : List.Forall₂ (· ≤ ·) z a) (hab : List.Forall₂ (· ≤ ·) a b) :
    ∃ x y : K,
      decomposeObjectives (Fl.rounded K rnd) sq (.fin eps) theta (a.map .fin) (w.map .fin) (z.map .fin)
        "tchebycheff" = .ok [.fin x] ∧
      decomposeObjectives (Fl.rounded K rnd) sq (.fin eps) theta (b.map .fin) (w.map .fin) (z.map .fin)
        "tchebycheff" = .ok [.fin y] ∧ x ≤ y := by
  have hl := hab.length_eq
  have hz := hza.length_eq
  have hneb : b ≠ [] := by rw [← List.length_pos_iff] at *; omega
  refine ⟨_, _, tcheb_call rnd sq eps theta a w z hne hw hz,
    tcheb_call rnd sq eps theta b w z hneb (by omega) (by omega), ?_⟩
  rw [← hl]
  have : ∀ m, m ≤ a.length → tAcc rnd eps a w z m ≤ tAcc rnd eps b w z m := by
    intro m
    induction m with
    | zero => intro _; exact le_refl _
    | succ m ih =>
      intro hm
      have h1 := ih (by omega)
      have ga : a.getD m 0 ≤ b.getD m 0 := by
        have := (List.forall₂_iff_get.mp hab).2 m (by omega) (by omega)
        simp only [List.get_eq_getElem] at this
        simp only [List.getD]
        rw [List.getElem?_eq_getElem (by omega : m < a.length),
          List.getElem?_eq_getElem (by omega : m < b.length)]
        exact this
      have gz : z.getD m 0 ≤ a.getD m 0 := by
        have := (List.forall₂_iff_get.mp hza).2 m (by omega) (by omega)
        simp only [List.get_eq_getElem] at this
        simp only [List.getD]
        rw [List.getElem?_eq_getElem (by omega : m < a.length),
          List.getElem?_eq_getElem (by omega : m < z.length)]
        exact this
      have gw : 0 ≤ (if w.getD m 0 = 0 then eps else w.getD m 0) := by
        split
        · exact heps
        · simp only [List.getD]
          rw [List.getElem?_eq_getElem (by omega : m < w.length)]
          exact hpos _ (List.getElem_mem _)
      have ha0 : 0 ≤ rnd (a.getD m 0 - z.getD m 0) := by
        have := hr (sub_nonneg.mpr gz); rwa [hr0] at this
      have hb0 : 0 ≤ rnd (b.getD m 0 - z.getD m 0) := by
        have := hr (sub_nonneg.mpr (gz.trans ga)); rwa [hr0] at this
      have ht : rnd ((if w.getD m 0 = 0 then eps else w.getD m 0) * |rnd (a.getD m 0 - z.getD m 0)|) ≤
          rnd ((if w.getD m 0 = 0 then eps else w.getD m 0) * |rnd (b.getD m 0 - z.getD m 0)|) := by
        apply hr
        apply mul_le_mul_of_nonneg_left _ gw
        rw [abs_of_nonneg ha0, abs_of_nonneg hb0]
        exact hr (by linarith)
      unfold tAcc
      simp only []
      generalize rnd ((if w.getD m 0 = 0 then eps else w.getD m 0) * |rnd (a.getD m 0 - z.getD m 0)|) = p at ht
      generalize rnd ((if w.getD m 0 = 0 then eps else w.getD m 0) * |rnd (b.getD m 0 - z.getD m 0)|) = q at ht
      split <;> split <;> linarith
  exact this _ le_rfl

/-- C09: in exact arithmetic the Tchebycheff decomposition is the largest of the weighted distances
`w_i |f_i - z_i|` (zero weights replaced by the constant `eps`): it bounds all of them and is one of them, or zero
if they are all non-positive. -/
theorem C09_tchebycheff_value (sq : Fl K → Fl K) (eps : K) (theta : Fl K)
    (f w z : List K) (hne : f ≠ []) (hw : w.length = f.length) (hz : z.length = f.length) :
    ∃ x, decomposeObjectives (Fl.exact K) sq (.fin eps) theta (f.map .fin) (w.map .fin) (z.map .fin)
        "tchebycheff" = .ok [.fin x] ∧ 0 ≤ x ∧
      (∀ i (h : i < f.length), (if w[i] = 0 then eps else w[i]) * |f[i] - z[i]| ≤ x) ∧
      (x = 0 ∨ ∃ i, ∃ h : i < f.length, x = (if w[i] = 0 then eps else w[i]) * |f[i] - z[i]|) := by
  have hpost : ∀ x : Fl K, Fl.post id x = x := by intro x; cases x <;> rfl
  have e : Fl.exact K = Fl.rounded K id := by
    unfold Fl.exact Fl.rounded
    congr 1 <;> (funext x y; exact (hpost _).symm)
  rw [e]
  refine ⟨_, tcheb_call id sq eps theta f w z hne hw hz, ?_⟩
  have : ∀ m, m ≤ f.length → 0 ≤ tAcc id eps f w z m ∧
      (∀ i (h : i < f.length), i < m → (if w[i] = 0 then eps else w[i]) * |f[i] - z[i]| ≤ tAcc id eps f w z m) ∧
      (tAcc id eps f w z m = 0 ∨ ∃ i, ∃ h : i < f.length,
        tAcc id eps f w z m = (if w[i] = 0 then eps else w[i]) * |f[i] - z[i]|) := by
    intro m
    induction m with
    | zero => intro _; exact ⟨le_refl _, by intro i _ h; omega, Or.inl rfl⟩
    | succ m ih =>
      intro hm
      obtain ⟨h1, h2, h3⟩ := ih (by omega)
      have ew : w.getD m 0 = w[m] := by
        simp only [List.getD]; rw [List.getElem?_eq_getElem (by omega)]; rfl
      have ef : f.getD m 0 = f[m] := by
        simp only [List.getD]; rw [List.getElem?_eq_getElem (by omega)]; rfl
      have ez : z.getD m 0 = z[m] := by
        simp only [List.getD]; rw [List.getElem?_eq_getElem (by omega)]; rfl
      unfold tAcc
      simp only [id, ew, ef, ez]
      by_cases hgt : (if w[m] = 0 then eps else w[m]) * |f[m] - z[m]| > tAcc id eps f w z m
      · rw [if_pos hgt]
        refine ⟨by linarith, ?_, Or.inr ⟨m, by omega, rfl⟩⟩
        intro i hi him
        by_cases h : i = m
        · subst h; exact le_refl _
        · exact (h2 i hi (by omega)).trans hgt.le
      · rw [if_neg hgt]
        refine ⟨h1, ?_, h3⟩
        intro i hi him
        by_cases h : i = m
        · subst h; exact not_lt.mp hgt
        · exact h2 i hi (by omega)
  obtain ⟨h1, h2, h3⟩ := this f.length le_rfl
  exact ⟨h1, fun i h => h2 i h h, h3⟩

end c09

example : decomposeObjectives (Fl.exact ℚ) id (.fin (1/10000)) (.fin 5) [.fin 3, .fin 7] [.fin (1/4), .fin (3/4)]
    [.fin 1, .fin 2] "weighted" = .ok [.fin 6] := by decide +kernel
example : decomposeObjectives (Fl.exact ℚ) id (.fin (1/10000)) (.fin 5) [.fin 3, .fin 7] [.fin (1/4), .fin (3/4)]
    [.fin 1, .fin 2] "tchebycheff" = .ok [.fin (15/4)] := by decide +kernel

end Verif.Props
