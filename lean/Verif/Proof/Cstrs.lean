import Verif.Model.Cstrs
import Mathlib.Algebra.BigOperators.Intervals
import Mathlib.Algebra.Order.BigOperators.Group.Finset
import Mathlib.Tactic.FieldSimp

/-!
# Helper lemmas for `Verif.Props.Cstrs`: the penalties for finite values in exact arithmetic
-/

set_option autoImplicit false

namespace Verif.Cstrs

open Verif Alg Finset

variable {K : Type} [Field K] [LinearOrder K] [IsStrictOrderedRing K]

/-- a vector of finite doubles -/
def fins (l : List K) : List (Fl K) := l.map .fin

/-- entry `i` -/
def ent (l : List K) (i : Nat) : K := l.getD i 0

/-- objective of individual `i` -/
def obj (F : List (List K)) (i : Nat) : K := ent (F.getD i []) 0

/-- How much constraint `j` is violated by an individual with fitness vector `r`, given the tolerances `T`; the first `nec`
constraints are equalities. -/
def excess (nec : Nat) (T r : List K) (j : Nat) : K := max 0 ((if j < nec then |ent r (j + 1)| else ent r (j + 1)) - ent T j)

/-- The infeasibility measure: violations, each divided by its greatest value in the population `M`, averaged. (Division by
`M j = 0` is zero: such a constraint is ignored.) -/
def iota (nec nc : Nat) (T : List K) (M : Nat → K) (r : List K) : K := (∑ j ∈ range nc, excess nec T r j / M j) / nc

/-- `M j` is the greatest violation of constraint `j` in the population `F`. -/
def Greatest (nec nc : Nat) (T : List K) (F : List (List K)) (M : Nat → K) : Prop :=
  ∀ j, j < nc → 0 ≤ M j ∧ (∀ r ∈ F, excess nec T r j ≤ M j) ∧ (M j = 0 ∨ ∃ r ∈ F, excess nec T r j = M j)

theorem get_fins {l : List K} {i : Nat} (h : i < l.length) : Outcome.get (fins l) i = .ok (.fin (ent l i)) := by
  rw [Outcome.get_eq_ok_iff, fins, List.getElem?_map, List.getElem?_eq_getElem h, ent, List.getD_eq_getElem?_getD,
    List.getElem?_eq_getElem h]
  rfl

theorem stdMax_fin (a b : K) : Fl.stdMax (.fin a) (.fin b) = Fl.fin (max a b) := by
  unfold Fl.stdMax Fl.lt
  by_cases h : a < b
  · simp [h, max_eq_right h.le]
  · simp [h, max_eq_left (not_lt.mp h)]

theorem abs_fin (a : K) : Fl.abs (.fin a) = Fl.fin |a| := by
  unfold Fl.abs
  by_cases h : a < 0
  · simp [h, abs_of_neg h]
  · simp [h, abs_of_nonneg (not_lt.mp h)]

theorem sub_fin (a b : K) : Fl.sub (.fin a) (.fin b) = Fl.fin (a - b) := by simp [Fl.sub, Fl.neg, Fl.add, sub_eq_add_neg]

theorem div_fin {a b : K} (h : b ≠ 0) : Fl.div (.fin a) (.fin b) = Fl.fin (a / b) := by simp [Fl.div, h]

theorem gt_fin (a b : K) : Fl.gt (.fin a) (.fin b) = decide (b < a) := rfl

theorem le_fin (a b : K) : Fl.le (.fin a) (.fin b) = decide (a ≤ b) := by
  simp [Fl.le, Fl.lt, Fl.eq, le_iff_lt_or_eq]

theorem eq_fin (a b : K) : Fl.eq (.fin a) (.fin b) = decide (a = b) := rfl

theorem lt_fin (a b : K) : Fl.lt (.fin a) (.fin b) = decide (a < b) := rfl

theorem caViol_fin {nec nc : Nat} {T r : List K} (hT : T.length = nc) (hr : r.length = nc + 1) {j : Nat} (hj : j < nc) :
    caViol (Fl.exact K) nec (fins T) (fins r) j = .ok (.fin (excess nec T r j)) := by
  unfold caViol
  rw [get_fins (by omega), get_fins (by omega)]
  simp only [Outcome.bind_ok, Outcome.pure_eq, Fl.exact]
  unfold excess
  split
  · rw [abs_fin, sub_fin, stdMax_fin]
  · rw [sub_fin, stdMax_fin]

theorem excess_nonneg (nec : Nat) (T r : List K) (j : Nat) : 0 ≤ excess nec T r j := le_max_left _ _

/-- the vector with entries `M 0, …, M (n - 1)` -/
def tab (n : Nat) (M : Nat → K) : List (Fl K) := (List.range n).map (fun j => .fin (M j))

theorem get_tab {n : Nat} {M : Nat → K} {j : Nat} (h : j < n) : Outcome.get (tab n M) j = .ok (.fin (M j)) := by
  rw [Outcome.get_eq_ok_iff, tab, List.getElem?_map, List.getElem?_range h]; rfl

theorem set_tab {n : Nat} {M : Nat → K} {j : Nat} (h : j < n) (a : K) :
    Outcome.set (tab n M) j (.fin a) = .ok (tab n (Function.update M j a)) := by
  rw [Outcome.set_of_lt (by simpa [tab] using h)]
  congr 1
  refine List.ext_getElem? fun i => ?_
  rw [List.getElem?_set]
  by_cases hij : j = i
  · subst hij
    simp [tab, h, List.getElem?_range h]
  · rw [if_neg hij]
    by_cases hi : i < n
    · simp [tab, List.getElem?_range hi, Function.update_of_ne (Ne.symm hij)]
    · simp [tab, List.getElem?_eq_none (l := List.range n) (i := i) (by simpa using hi)]

theorem caCMaxRow_fin {nec nc : Nat} {T r : List K} (hT : T.length = nc) (hr : r.length = nc + 1) (M : Nat → K) :
    ∃ M', caCMaxRow (Fl.exact K) nec nc (fins T) (tab nc M) (fins r) = .ok (tab nc M') ∧
      ∀ j, j < nc → M' j = max (M j) (excess nec T r j) := by
  have := Outcome.range_sat (f := caCMaxCell (Fl.exact K) nec (fins T) (fins r))
    (fun i m => ∃ M', m = tab nc M' ∧ (∀ j, j < i → M' j = max (M j) (excess nec T r j)) ∧ ∀ j, i ≤ j → M' j = M j)
    nc (tab nc M) ⟨M, rfl, by simp, by simp⟩ ?_
  · obtain ⟨m, h1, M', rfl, h2, _⟩ := this
    exact ⟨M', h1, h2⟩
  · rintro i m hi ⟨M', rfl, h2, h3⟩
    unfold caCMaxCell
    rw [caViol_fin hT hr hi, Outcome.bind_ok, get_tab hi, Outcome.bind_ok, stdMax_fin, set_tab hi]
    refine (Outcome.sat_ok).mpr ⟨_, rfl, ?_, ?_⟩
    · intro j hj
      by_cases hji : j = i
      · subst hji; rw [Function.update_self, h3 j (le_refl _)]
      · rw [Function.update_of_ne hji]; exact h2 j (by omega)
    · intro j hj
      rw [Function.update_of_ne (by omega)]; exact h3 j (by omega)

theorem caCMax_fin {nec nc : Nat} {T : List K} (hT : T.length = nc) {F : List (List K)} (hF : ∀ r ∈ F, r.length = nc + 1) :
    ∃ M, caCMax (Fl.exact K) nec nc (fins T) (F.map fins) = .ok (tab nc M) ∧ Greatest nec nc T F M := by
  have gen : ∀ (G : List (List K)), (∀ r ∈ G, r.length = nc + 1) → ∀ M : Nat → K, (∀ j, j < nc → 0 ≤ M j) →
      ∃ M', (G.map fins).foldlM (caCMaxRow (Fl.exact K) nec nc (fins T)) (tab nc M) = .ok (tab nc M') ∧
        ∀ j, j < nc → M j ≤ M' j ∧ (∀ r ∈ G, excess nec T r j ≤ M' j) ∧ (M' j = M j ∨ ∃ r ∈ G, excess nec T r j = M' j) := by
    intro G
    induction G with
    | nil => intro _ M _; exact ⟨M, rfl, fun j _ => ⟨le_refl _, by simp, Or.inl rfl⟩⟩
    | cons r G ih =>
      intro hG M hM
      obtain ⟨M1, h1, h2⟩ := caCMaxRow_fin (nec := nec) hT (hG r (by simp)) M
      obtain ⟨M2, h3, h4⟩ := ih (fun r hr => hG r (by simp [hr])) M1 (fun j hj => by
        rw [h2 j hj]; exact le_max_of_le_left (hM j hj))
      refine ⟨M2, ?_, fun j hj => ?_⟩
      · rw [List.map_cons, List.foldlM_cons, h1, Outcome.bind_ok]; exact h3
      · obtain ⟨a, b, c⟩ := h4 j hj
        have h2 := h2 j hj
        refine ⟨le_trans (by rw [h2]; exact le_max_left _ _) a, ?_, ?_⟩
        · intro r' hr'
          rcases List.mem_cons.mp hr' with rfl | hr'
          · exact le_trans (by rw [h2]; exact le_max_right _ _) a
          · exact b r' hr'
        · rcases c with c | ⟨r', hr', c⟩
          · rcases max_choice (M j) (excess nec T r j) with hc | hc
            · exact Or.inl (by rw [c, h2, hc])
            · exact Or.inr ⟨r, by simp, by rw [c, h2, hc]⟩
          · exact Or.inr ⟨r', by simp [hr'], c⟩
  have h0 : (List.replicate nc (.fin 0) : List (Fl K)) = tab nc (fun _ => 0) := by
    unfold tab; rw [List.map_const']; simp
  obtain ⟨M, h1, h2⟩ := gen F hF (fun _ => 0) (fun _ _ => le_refl _)
  exact ⟨M, by unfold caCMax; rw [h0]; exact h1, h2⟩

theorem caInfeas_fin {nec nc : Nat} {T r : List K} (hT : T.length = nc) (hr : r.length = nc + 1) (hnc : 0 < nc) {M : Nat → K}
    (hM : ∀ j, j < nc → 0 ≤ M j) :
    caInfeas (Fl.exact K) nec nc (fins T) (tab nc M) (fins r) = .ok (.fin (iota nec nc T M r)) := by
  have := Outcome.range_sat (f := caInfeasCell (Fl.exact K) nec (fins T) (tab nc M) (fins r))
    (fun i m => m = Fl.fin (∑ j ∈ range i, excess nec T r j / M j)) nc (.fin 0) (by simp) ?_
  · obtain ⟨m, h1, h2⟩ := this
    unfold caInfeas
    rw [h1, Outcome.bind_ok, h2]
    simp only [Outcome.pure_eq, Fl.exact]
    rw [div_fin (by exact_mod_cast hnc.ne')]
    rfl
  · rintro i m hi rfl
    unfold caInfeasCell
    rw [get_tab hi, Outcome.bind_ok, gt_fin]
    by_cases h : 0 < M i
    · rw [if_pos (by simpa using h), caViol_fin hT hr hi]
      simp only [Outcome.bind_ok, Outcome.pure_eq, Outcome.sat_ok, Fl.exact]
      rw [div_fin h.ne', sum_range_succ]; rfl
    · have h0 : M i = 0 := le_antisymm (not_lt.mp h) (hM i hi)
      rw [if_neg (by simpa using h)]
      simp [sum_range_succ, h0]

theorem iota_nonneg {nec nc : Nat} {T r : List K} {M : Nat → K} (hM : ∀ j, j < nc → 0 ≤ M j) : 0 ≤ iota nec nc T M r := by
  unfold iota
  refine div_nonneg (sum_nonneg fun j hj => div_nonneg (excess_nonneg _ _ _ _) (hM j (by simpa using hj))) (by positivity)

/-- a point has positive infeasibility iff it violates a constraint that somebody in the population violates -/
theorem iota_pos {nec nc : Nat} {T r : List K} {M : Nat → K} (hM : ∀ j, j < nc → 0 ≤ M j) :
    0 < iota nec nc T M r ↔ ∃ j, j < nc ∧ 0 < M j ∧ 0 < excess nec T r j := by
  have nn : ∀ j ∈ range nc, 0 ≤ excess nec T r j / M j := fun j hj =>
    div_nonneg (excess_nonneg _ _ _ _) (hM j (by simpa using hj))
  constructor
  · intro h
    by_contra hc
    push Not at hc
    refine absurd h (not_lt.mpr (le_of_eq ?_))
    unfold iota
    rw [sum_eq_zero, zero_div]
    intro j hj
    have hj : j < nc := by simpa using hj
    rcases (hM j hj).lt_or_eq with h1 | h1
    · rw [le_antisymm (hc j hj h1) (excess_nonneg _ _ _ _), zero_div]
    · rw [← h1, div_zero]
  · rintro ⟨j, hj, h1, h2⟩
    unfold iota
    refine div_pos (sum_pos' nn ⟨j, by simpa using hj, div_pos h2 h1⟩) ?_
    have : 0 < nc := by omega
    exact_mod_cast this

/-- a member of the population has positive infeasibility iff it violates a constraint -/
theorem iota_member {nec nc : Nat} {T : List K} {F : List (List K)} {M : Nat → K} (hM : Greatest nec nc T F M) {r : List K}
    (hr : r ∈ F) : 0 < iota nec nc T M r ↔ ∃ j, j < nc ∧ 0 < excess nec T r j := by
  rw [iota_pos (fun j hj => (hM j hj).1)]
  constructor
  · rintro ⟨j, hj, _, h⟩; exact ⟨j, hj, h⟩
  · rintro ⟨j, hj, h⟩; exact ⟨j, hj, lt_of_lt_of_le h ((hM j hj).2.1 r hr), h⟩

/-! ### loops that keep the best index -/

theorem pick_ok {better : Nat → Nat → Outcome Bool} {g : Nat → Prop} {r : Nat → Nat → Prop} [DecidablePred g] [DecidableRel r]
    (asymm : ∀ a b, r a b → ¬ r b a) (trans : ∀ a b c, ¬ r a b → ¬ r b c → ¬ r a c) :
    ∀ (l : List Nat) (b : Nat), (∀ c ∈ l, ∀ a ∈ b :: l, better c a = .ok (decide (g c ∧ r c a))) → g b →
      ∃ m, caPick better b l = .ok m ∧ m ∈ b :: l ∧ g m ∧ ∀ c ∈ b :: l, g c → ¬ r c m := by
  intro l
  induction l with
  | nil =>
    intro b _ hb
    refine ⟨b, rfl, by simp, hb, ?_⟩
    intro c hc _ h
    rw [List.mem_singleton] at hc
    subst hc
    exact asymm _ _ h h
  | cons a l ih =>
    intro b hl hb
    have e1 : caPick better b (a :: l) = caPick better (if g a ∧ r a b then a else b) l := by
      show ((a :: l).foldlM (caPickStep better) b) = _
      rw [List.foldlM_cons]
      unfold caPickStep
      rw [hl a (by simp) b (by simp)]
      simp only [Outcome.bind_ok, Outcome.pure_eq, decide_eq_true_eq]
      rfl
    rw [e1]
    by_cases h : g a ∧ r a b
    · rw [if_pos h]
      obtain ⟨m, h1, h2, h3, h4⟩ := ih a (fun c hc d hd => hl c (by simp [hc]) d (by
        rcases List.mem_cons.mp hd with rfl | hd
        · simp
        · simp [hd])) h.1
      refine ⟨m, h1, List.mem_cons_of_mem _ h2, h3, ?_⟩
      intro c hc gc
      rcases List.mem_cons.mp hc with rfl | hc
      · exact trans _ _ _ (asymm _ _ h.2) (h4 a (by simp) h.1)
      · exact h4 c hc gc
    · rw [if_neg h]
      obtain ⟨m, h1, h2, h3, h4⟩ := ih b (fun c hc d hd => hl c (by simp [hc]) d (by
        rcases List.mem_cons.mp hd with rfl | hd
        · simp
        · simp [hd])) hb
      refine ⟨m, h1, ?_, h3, ?_⟩
      · rcases List.mem_cons.mp h2 with rfl | h2
        · simp
        · simp [h2]
      · intro c hc gc
        rcases List.mem_cons.mp hc with rfl | hc
        · exact h4 c (by simp) gc
        · rcases List.mem_cons.mp hc with rfl | hc
          · exact trans _ _ _ (fun h' => h ⟨gc, h'⟩) (h4 b (by simp) hb)
          · exact h4 c (by simp [hc]) gc

theorem pick_all {better : Nat → Nat → Outcome Bool} {r : Nat → Nat → Prop} [DecidableRel r]
    (asymm : ∀ a b, r a b → ¬ r b a) (trans : ∀ a b c, ¬ r a b → ¬ r b c → ¬ r a c) (l : List Nat) (b : Nat)
    (hl : ∀ c ∈ l, ∀ a ∈ b :: l, better c a = .ok (decide (r c a))) :
    ∃ m, caPick better b l = .ok m ∧ m ∈ b :: l ∧ ∀ c ∈ b :: l, ¬ r c m := by
  obtain ⟨m, h1, h2, _, h3⟩ := pick_ok (better := better) (g := fun _ => True) (r := r) asymm trans l b (fun c hc a ha => by
    rw [hl c hc a ha]; congr 1; simp) trivial
  exact ⟨m, h1, h2, fun c hc => h3 c hc trivial⟩

theorem caObj_fin {nc : Nat} {F : List (List K)} (hF : ∀ r ∈ F, r.length = nc + 1) {i : Nat} (h : i < F.length) :
    caObj (F.map fins) i = .ok (.fin (obj F i)) := by
  unfold caObj
  rw [Outcome.get_of_lt (by simpa using h), Outcome.bind_ok, List.getElem_map, get_fins (by rw [hF _ (List.getElem_mem h)]; omega)]
  rw [obj, List.getD_eq_getElem?_getD, List.getElem?_eq_getElem h]
  rfl

/-- greater in infeasibility, or equal and higher in objective -/
def Worse (io o : Nat → K) (c b : Nat) : Prop := io b < io c ∨ io c = io b ∧ o b < o c
/-- smaller in infeasibility, or equal and lower in objective -/
def Nearer (io o : Nat → K) (c b : Nat) : Prop := io c < io b ∨ io c = io b ∧ o c < o b
/-- greater in infeasibility, or equal and lower in objective -/
def Farther (io o : Nat → K) (c b : Nat) : Prop := io b < io c ∨ io c = io b ∧ o c < o b

instance (io o : Nat → K) : DecidableRel (Worse io o) := fun _ _ => by unfold Worse; infer_instance
instance (io o : Nat → K) : DecidableRel (Nearer io o) := fun _ _ => by unfold Nearer; infer_instance
instance (io o : Nat → K) : DecidableRel (Farther io o) := fun _ _ => by unfold Farther; infer_instance

section
variable {nc : Nat} {F : List (List K)} {I : Nat → K}

theorem caLower_fin (hF : ∀ r ∈ F, r.length = nc + 1) {c b : Nat} (hc : c < F.length) (hb : b < F.length) :
    caLower (F.map fins) c b = .ok (decide (obj F c < obj F b)) := by
  unfold caLower; rw [caObj_fin hF hc, caObj_fin hF hb]; rfl

theorem caHigher_fin (hF : ∀ r ∈ F, r.length = nc + 1) {c b : Nat} (hc : c < F.length) (hb : b < F.length) :
    caHigher (F.map fins) c b = .ok (decide (obj F b < obj F c)) := by
  unfold caHigher; rw [caObj_fin hF hc, caObj_fin hF hb]; rfl

theorem caWorse_fin (hF : ∀ r ∈ F, r.length = nc + 1) {c b : Nat} (hc : c < F.length) (hb : b < F.length) :
    caWorse (F.map fins) (tab F.length I) c b = .ok (decide (Worse I (obj F) c b)) := by
  unfold caWorse
  rw [get_tab hc, get_tab hb]
  simp only [Outcome.bind_ok, Fl.ge, le_fin, eq_fin, decide_eq_true_eq, caHigher_fin hF hc hb]
  rcases lt_trichotomy (I b) (I c) with h | h | h
  · rw [if_pos h.le, if_neg h.ne']; simp [Worse, h]
  · rw [if_pos h.le, if_pos h.symm]; simp [Worse, h]
  · rw [if_neg (not_le.mpr h)]; simp [Worse, h.le, h.ne]

theorem caNearer_fin (hF : ∀ r ∈ F, r.length = nc + 1) {c b : Nat} (hc : c < F.length) (hb : b < F.length) :
    caNearer (F.map fins) (tab F.length I) c b = .ok (decide (Nearer I (obj F) c b)) := by
  unfold caNearer
  rw [get_tab hc, get_tab hb]
  simp only [Outcome.bind_ok, le_fin, eq_fin, decide_eq_true_eq, caLower_fin hF hc hb]
  rcases lt_trichotomy (I c) (I b) with h | h | h
  · rw [if_pos h.le, if_neg h.ne]; simp [Nearer, h]
  · rw [if_pos h.le, if_pos h]; simp [Nearer, h]
  · rw [if_neg (not_le.mpr h)]; simp [Nearer, h.le, h.ne']

theorem caBelow_fin (hF : ∀ r ∈ F, r.length = nc + 1) {fd : K} {c b : Nat} (hc : c < F.length) (hb : b < F.length) :
    caBelow (F.map fins) (tab F.length I) (.fin fd) c b = .ok (decide (obj F c < fd ∧ Farther I (obj F) c b)) := by
  unfold caBelow
  rw [caObj_fin hF hc, Outcome.bind_ok, lt_fin]
  by_cases h0 : obj F c < fd
  · rw [if_pos (by simpa using h0), get_tab hc, get_tab hb]
    simp only [Outcome.bind_ok, Fl.ge, le_fin, eq_fin, decide_eq_true_eq, caLower_fin hF hc hb]
    rcases lt_trichotomy (I b) (I c) with h | h | h
    · rw [if_pos h.le, if_neg h.ne']; simp [Farther, h, h0]
    · rw [if_pos h.le, if_pos h.symm]; simp [Farther, h, h0]
    · rw [if_neg (not_le.mpr h)]; simp [Farther, h.le, h.ne, h0]
  · rw [if_neg (by simpa using h0)]; simp [h0]

theorem caFirst_fin (hF : ∀ r ∈ F, r.length = nc + 1) {fd : K} : ∀ (l : List Nat), (∀ i ∈ l, i < F.length) →
    (caFirst (F.map fins) (.fin fd) l = .ok none ∧ ∀ i ∈ l, fd ≤ obj F i) ∨
    ∃ i ∈ l, caFirst (F.map fins) (.fin fd) l = .ok (some i) ∧ obj F i < fd := by
  intro l
  induction l with
  | nil => intro _; exact Or.inl ⟨rfl, by simp⟩
  | cons a l ih =>
    intro h
    unfold caFirst
    rw [caObj_fin hF (h a (by simp)), Outcome.bind_ok, lt_fin]
    by_cases h0 : obj F a < fd
    · rw [if_pos (by simpa using h0)]
      exact Or.inr ⟨a, by simp, rfl, h0⟩
    · rw [if_neg (by simpa using h0)]
      rcases ih (fun i hi => h i (by simp [hi])) with ⟨h1, h2⟩ | ⟨i, hi, h1, h2⟩
      · refine Or.inl ⟨h1, fun i hi => ?_⟩
        rcases List.mem_cons.mp hi with rfl | hi
        · exact not_lt.mp h0
        · exact h2 i hi
      · exact Or.inr ⟨i, by simp [hi], h1, h2⟩

end

/-! ### `update` -/

/-- infeasibility of individual `i` -/
def io (nec nc : Nat) (T : List K) (M : Nat → K) (F : List (List K)) (i : Nat) : K := iota nec nc T M (F.getD i [])

/-- The individuals `d` (best) and `u` (worst) chosen, given infeasibilities `I` and objectives `o` of `n` individuals, and
whether the first penalty is applied. -/
def Chosen (I o : Nat → K) (n d u : Nat) (apply1 : Bool) : Prop :=
  -- somebody is feasible, `d` is the feasible one with the lowest objective,
  (I d = 0 ∧ (∀ i, i < n → I i = 0 → o d ≤ o i) ∧ 0 < I u ∧
    -- some infeasible ones have a lower objective, and `u` is the worst of them,
    ((apply1 = true ∧ o u < o d ∧ ∀ i, i < n → 0 < I i → o i < o d → ¬ Farther I o i u) ∨
    -- or none has, and `u` is the worst of all infeasible ones;
     (apply1 = false ∧ ∀ i, i < n → 0 < I i → o d ≤ o i ∧ ¬ Worse I o i u))) ∨
  -- or nobody is feasible, `d` is the best and `u` the worst.
  ((∀ i, i < n → 0 < I i) ∧ apply1 = true ∧ ∀ i, i < n → ¬ Nearer I o i d ∧ ¬ Worse I o i u)

theorem worse_asymm (I o : Nat → K) (a b : Nat) (h : Worse I o a b) : ¬ Worse I o b a := by
  unfold Worse at *
  rcases h with h | ⟨h, h'⟩
  · rintro (h2 | ⟨h2, _⟩)
    · exact lt_asymm h h2
    · exact h.ne h2
  · rintro (h2 | ⟨_, h2⟩)
    · exact h2.ne h
    · exact lt_asymm h' h2

theorem worse_trans (I o : Nat → K) (a b c : Nat) (h : ¬ Worse I o a b) (h' : ¬ Worse I o b c) : ¬ Worse I o a c := by
  unfold Worse at *
  push Not at *
  refine ⟨h.1.trans h'.1, fun e => ?_⟩
  have e1 : I a = I b := le_antisymm h.1 (by rw [e]; exact h'.1)
  exact (h.2 e1).trans (h'.2 (e1 ▸ e))

theorem nearer_asymm (I o : Nat → K) (a b : Nat) (h : Nearer I o a b) : ¬ Nearer I o b a := by
  unfold Nearer at *
  rcases h with h | ⟨h, h'⟩
  · rintro (h2 | ⟨h2, _⟩)
    · exact lt_asymm h h2
    · exact h.ne' h2
  · rintro (h2 | ⟨_, h2⟩)
    · exact h2.ne' h
    · exact lt_asymm h' h2

theorem nearer_trans (I o : Nat → K) (a b c : Nat) (h : ¬ Nearer I o a b) (h' : ¬ Nearer I o b c) : ¬ Nearer I o a c := by
  unfold Nearer at *
  push Not at *
  refine ⟨h'.1.trans h.1, fun e => ?_⟩
  have e1 : I a = I b := le_antisymm (by rw [e]; exact h'.1) h.1
  exact (h'.2 (e1 ▸ e)).trans (h.2 e1)

theorem farther_asymm (I o : Nat → K) (a b : Nat) (h : Farther I o a b) : ¬ Farther I o b a := by
  unfold Farther at *
  rcases h with h | ⟨h, h'⟩
  · rintro (h2 | ⟨h2, _⟩)
    · exact lt_asymm h h2
    · exact h.ne h2
  · rintro (h2 | ⟨_, h2⟩)
    · exact h2.ne h
    · exact lt_asymm h' h2

theorem farther_trans (I o : Nat → K) (a b c : Nat) (h : ¬ Farther I o a b) (h' : ¬ Farther I o b c) : ¬ Farther I o a c := by
  unfold Farther at *
  push Not at *
  refine ⟨h.1.trans h'.1, fun e => ?_⟩
  have e1 : I a = I b := le_antisymm h.1 (by rw [e]; exact h'.1)
  exact (h'.2 (e1 ▸ e)).trans (h.2 e1)

theorem range'_cons {n i : Nat} (hn : 0 < n) : i ∈ 0 :: List.range' 1 (n - 1) ↔ i < n := by
  rw [List.mem_cons, List.mem_range'_1]; omega

section
variable {nc : Nat} {F : List (List K)} {I : Nat → K} {feas infs : List Nat}

theorem cons_drop {α : Type} {l : List α} (h : 0 < l.length) : ∃ a, Outcome.get l 0 = .ok a ∧ a :: l.drop 1 = l := by
  cases l with
  | nil => simp at h
  | cons a l => exact ⟨a, rfl, by simp⟩

theorem caHats_fin (hF : ∀ r ∈ F, r.length = nc + 1) (hI : ∀ i, i < F.length → 0 ≤ I i)
    (hfeas : ∀ i, i ∈ feas ↔ i < F.length ∧ I i = 0) (hinfs : ∀ i, i ∈ infs ↔ i < F.length ∧ 0 < I i) (hne : 0 < infs.length) :
    ∃ d u a, caHats (F.map fins) (tab F.length I) F.length feas infs = .ok (d, u, a) ∧ d < F.length ∧ u < F.length ∧
      Chosen I (obj F) F.length d u a := by
  have hn : 0 < F.length := by
    obtain ⟨a, ha⟩ := List.exists_mem_of_length_pos hne
    have := (hinfs a).mp ha; omega
  unfold caHats
  by_cases h : 0 < feas.length
  · rw [if_pos h]
    obtain ⟨i, h1, h2⟩ := cons_drop h
    have memf : ∀ c ∈ i :: feas.drop 1, c < F.length ∧ I c = 0 := fun c hc => (hfeas c).mp (h2 ▸ hc)
    obtain ⟨d, h3, h4, h5⟩ := pick_all (better := caLower (F.map fins)) (r := fun c b => obj F c < obj F b)
      (fun _ _ h h' => lt_asymm h h') (fun _ _ _ h h' => not_lt.mpr ((not_lt.mp h').trans (not_lt.mp h))) (feas.drop 1) i
      (fun c hc a ha => caLower_fin hF (memf c (List.mem_cons_of_mem _ hc)).1 (memf a ha).1)
    obtain ⟨hd, hd0⟩ := memf d h4
    have hlow : ∀ i, i < F.length → I i = 0 → obj F d ≤ obj F i := fun j hj hj0 =>
      not_lt.mp (h5 j (by rw [h2, hfeas]; exact ⟨hj, hj0⟩))
    simp only [h1, Outcome.bind_ok, h3, caObj_fin hF hd]
    unfold caHatUp
    rcases caFirst_fin hF (fd := obj F d) infs (fun i hi => ((hinfs i).mp hi).1) with ⟨e, e'⟩ | ⟨i0, hi0, e, e'⟩
    · simp only [e, Outcome.bind_ok]
      obtain ⟨j, g1, g2⟩ := cons_drop hne
      have memi : ∀ c ∈ j :: infs.drop 1, c < F.length ∧ 0 < I c := fun c hc => (hinfs c).mp (g2 ▸ hc)
      obtain ⟨u, g3, g4, g5⟩ := pick_all (better := caWorse (F.map fins) (tab F.length I)) (r := Worse I (obj F))
        (worse_asymm _ _) (worse_trans _ _) (infs.drop 1) j
        (fun c hc a ha => caWorse_fin hF (memi c (List.mem_cons_of_mem _ hc)).1 (memi a ha).1)
      simp only [g1, Outcome.bind_ok, g3]
      refine ⟨d, u, false, rfl, hd, (memi u g4).1, Or.inl ⟨hd0, hlow, (memi u g4).2, Or.inr ⟨rfl, fun i hi hi0 => ?_⟩⟩⟩
      have mi : i ∈ infs := (hinfs i).mpr ⟨hi, hi0⟩
      exact ⟨e' i mi, g5 i (by rw [g2]; exact mi)⟩
    · simp only [e, Outcome.bind_ok]
      have memi : ∀ c ∈ i0 :: infs, c < F.length ∧ 0 < I c := fun c hc => by
        rcases List.mem_cons.mp hc with rfl | hc
        · exact (hinfs c).mp hi0
        · exact (hinfs c).mp hc
      obtain ⟨u, g3, g4, g5, g6⟩ := pick_ok (better := caBelow (F.map fins) (tab F.length I) (.fin (obj F d)))
        (g := fun c => obj F c < obj F d) (r := Farther I (obj F))
        (farther_asymm _ _) (farther_trans _ _) infs i0
        (fun c hc a ha => caBelow_fin hF (memi c (List.mem_cons_of_mem _ hc)).1 (memi a ha).1) e'
      simp only [g3, Outcome.bind_ok]
      refine ⟨d, u, true, rfl, hd, (memi u g4).1, Or.inl ⟨hd0, hlow, (memi u g4).2, Or.inl ⟨rfl, g5, fun i hi hi0 hlt => ?_⟩⟩⟩
      exact g6 i (by simp [(hinfs i).mpr ⟨hi, hi0⟩]) hlt
  · rw [if_neg h]
    have hno : ∀ i, i < F.length → 0 < I i := by
      intro i hi
      rcases (hI i hi).lt_or_eq with h' | h'
      · exact h'
      · have := List.length_pos_of_mem ((hfeas i).mpr ⟨hi, h'.symm⟩); omega
    obtain ⟨d, g3, g4, g5⟩ := pick_all (better := caNearer (F.map fins) (tab F.length I)) (r := Nearer I (obj F))
      (nearer_asymm _ _) (nearer_trans _ _) (List.range' 1 (F.length - 1)) 0
      (fun c hc a ha => caNearer_fin hF ((range'_cons hn).mp (by simp only [List.mem_cons]; exact Or.inr hc)) ((range'_cons hn).mp ha))
    obtain ⟨u, f3, f4, f5⟩ := pick_all (better := caWorse (F.map fins) (tab F.length I)) (r := Worse I (obj F))
      (worse_asymm _ _) (worse_trans _ _) (List.range' 1 (F.length - 1)) 0
      (fun c hc a ha => caWorse_fin hF ((range'_cons hn).mp (by simp only [List.mem_cons]; exact Or.inr hc)) ((range'_cons hn).mp ha))
    simp only [g3, Outcome.bind_ok, f3]
    exact ⟨d, u, true, rfl, (range'_cons hn).mp g4, (range'_cons hn).mp f4, Or.inr ⟨hno, rfl, fun i hi =>
      ⟨g5 i ((range'_cons hn).mpr hi), f5 i ((range'_cons hn).mpr hi)⟩⟩⟩

theorem get_row {i : Nat} (h : i < F.length) : Outcome.get (F.map fins) i = .ok (fins (F.getD i [])) := by
  rw [Outcome.get_of_lt (by simpa using h), List.getElem_map, List.getD_eq_getElem?_getD, List.getElem?_eq_getElem h]; rfl

/-- The scaling factor for finite objectives of the best (`d`), worst (`u`) and highest (`r`). -/
theorem caGamma_fin {d u r : K} (h : u ≠ r → (if u ≤ d then d else u) ≠ 0) :
    caGamma (Fl.exact K) (.fin d) (.fin u) (.fin r) =
      .fin (if u = r then 0 else if u ≤ d then (r - d) / d else (r - u) / u) := by
  unfold caGamma
  simp only [eq_fin, le_fin, decide_eq_true_eq, Fl.exact, sub_fin]
  by_cases h1 : u = r
  · simp [h1]
  · rw [if_neg h1, if_neg h1]
    have h := h h1
    by_cases h2 : u ≤ d
    · rw [if_pos h2] at h; rw [if_pos h2, if_pos h2, div_fin h]
    · rw [if_neg h2] at h; rw [if_neg h2, if_neg h2, div_fin h]

/-- what `update` leaves in the penalized problem when all values are finite -/
structure Updated (nec nc : Nat) (T : List K) (F : List (List K)) (M : Nat → K) (pn : Penal K) : Prop where
  cMax : pn.cMax = tab nc M
  nFeas : pn.nFeas = ((List.range F.length).filter (fun i => decide (io nec nc T M F i = 0))).length
  rest : ((∀ i, i < F.length → io nec nc T M F i = 0) ∧ pn.apply1 = false ∧ pn.gamma = .fin 0 ∧ pn.iDown = .fin 0 ∧ pn.iUp = .fin 0) ∨
    ∃ d u r, d < F.length ∧ u < F.length ∧ r < F.length ∧ Chosen (io nec nc T M F) (obj F) F.length d u pn.apply1 ∧
      (∀ i, i < F.length → obj F i ≤ obj F r) ∧
      pn.fDown = fins (F.getD d []) ∧ pn.fUp = fins (F.getD u []) ∧ pn.fRound = fins (F.getD r []) ∧
      pn.iDown = .fin (io nec nc T M F d) ∧ pn.iUp = .fin (io nec nc T M F u) ∧ pn.iRound = .fin (io nec nc T M F r) ∧
      pn.gamma = caGamma (Fl.exact K) (.fin (obj F d)) (.fin (obj F u)) (.fin (obj F r))

theorem caUpdate_fin {nec : Nat} {T : List K} (hT : T.length = nc) (hF : ∀ r ∈ F, r.length = nc + 1) (hnc : 0 < nc) (hn : 0 < F.length) :
    ∃ M pn, caUpdate (Fl.exact K) nec nc (fins T) (F.map fins) = .ok pn ∧ Greatest nec nc T F M ∧ Updated nec nc T F M pn := by
  obtain ⟨M, h1, h2⟩ := caCMax_fin (nec := nec) hT hF
  have hM : ∀ j, j < nc → 0 ≤ M j := fun j hj => (h2 j hj).1
  have e1 : (F.map fins).mapM (caInfeas (Fl.exact K) nec nc (fins T) (tab nc M)) = .ok (tab F.length (io nec nc T M F)) := by
    have gen : ∀ G : List (List K), (∀ r ∈ G, r.length = nc + 1) →
        (G.map fins).mapM (caInfeas (Fl.exact K) nec nc (fins T) (tab nc M)) = .ok (G.map (fun r => .fin (iota nec nc T M r))) := by
      intro G
      induction G with
      | nil => intro _; rfl
      | cons r G ih =>
        intro hG
        rw [List.map_cons, List.mapM_cons, caInfeas_fin hT (hG r (by simp)) hnc hM, Outcome.bind_ok, ih (fun r hr => hG r (by simp [hr]))]
        rfl
    rw [gen F hF]
    congr 1
    refine List.ext_getElem? fun i => ?_
    by_cases hi : i < F.length
    · simp [tab, io, hi, List.getElem?_range hi]
    · simp [tab, hi]
  have hlen : (F.map fins).length = F.length := by simp
  have hI : ∀ i, i < F.length → 0 ≤ io nec nc T M F i := fun i _ => iota_nonneg hM
  have eD : ∀ i, i < F.length → (tab F.length (io nec nc T M F)).getD i .nan = .fin (io nec nc T M F i) := by
    intro i hi
    have := Outcome.get_eq_ok_iff.mp (get_tab (M := io nec nc T M F) hi)
    rw [List.getD_eq_getElem?_getD, this]; rfl
  unfold caUpdate
  simp only [h1, Outcome.bind_ok, e1, hlen]
  have f1 : (List.range F.length).filter (fun i => !(Fl.gt ((tab F.length (io nec nc T M F)).getD i .nan) (.fin 0))) =
      (List.range F.length).filter (fun i => decide (io nec nc T M F i = 0)) := by
    refine List.filter_congr fun i hi => ?_
    have hi : i < F.length := by simpa using hi
    rw [eD i hi, gt_fin]
    rcases (hI i hi).lt_or_eq with h | h
    · simp [h, h.ne']
    · simp [← h]
  have f2 : (List.range F.length).filter (fun i => Fl.gt ((tab F.length (io nec nc T M F)).getD i .nan) (.fin 0)) =
      (List.range F.length).filter (fun i => decide (0 < io nec nc T M F i)) := by
    refine List.filter_congr fun i hi => ?_
    rw [eD i (by simpa using hi), gt_fin]
  rw [f1, f2]
  by_cases hall : ((List.range F.length).filter (fun i => decide (io nec nc T M F i = 0))).length = F.length
  · rw [if_pos hall, get_row hn]
    refine ⟨M, _, rfl, h2, rfl, rfl, Or.inl ⟨?_, rfl, rfl, rfl, rfl⟩⟩
    intro i hi
    have := (List.length_filter_eq_length_iff (l := List.range F.length)
      (p := fun i => decide (io nec nc T M F i = 0))).mp (by simpa using hall) i (by simpa using hi)
    simpa using this
  · rw [if_neg hall]
    have hne : 0 < ((List.range F.length).filter (fun i => decide (0 < io nec nc T M F i))).length := by
      by_contra hc
      refine hall ?_
      have h0 : ∀ i, i < F.length → io nec nc T M F i = 0 := by
        intro i hi
        rcases (hI i hi).lt_or_eq with h | h
        · exact absurd (List.length_pos_of_mem (List.mem_filter.mpr ⟨List.mem_range.mpr hi, by simpa using h⟩)) hc
        · exact h.symm
      rw [List.filter_eq_self.mpr (fun i hi => by simpa using h0 i (by simpa using hi))]; simp
    obtain ⟨d, u, a, g1, hd, hu, g2⟩ := caHats_fin (I := io nec nc T M F)
      (feas := (List.range F.length).filter (fun i => decide (io nec nc T M F i = 0)))
      (infs := (List.range F.length).filter (fun i => decide (0 < io nec nc T M F i))) hF hI (by simp) (by simp) hne
    obtain ⟨r, g3, g4, g5⟩ := pick_all (better := caHigher (F.map fins)) (r := fun c b => obj F b < obj F c)
      (fun _ _ h h' => lt_asymm h h') (fun _ _ _ h h' => not_lt.mpr ((not_lt.mp h).trans (not_lt.mp h'))) (List.range' 1 (F.length - 1)) 0
      (fun c hc a ha => caHigher_fin hF ((range'_cons hn).mp (by simp only [List.mem_cons]; exact Or.inr hc)) ((range'_cons hn).mp ha))
    have hr := (range'_cons hn).mp g4
    have o0 : ∀ i, i < F.length → Outcome.get (fins (F.getD i [])) 0 = .ok (.fin (obj F i)) := by
      intro i hi
      have := caObj_fin hF hi
      unfold caObj at this
      rwa [get_row hi, Outcome.bind_ok] at this
    unfold caPenal
    simp only [g1, Outcome.bind_ok, g3, get_row hr, get_row hd, get_row hu, get_tab hr, get_tab hd, get_tab hu, o0 _ hr, o0 _ hd, o0 _ hu]
    refine ⟨M, _, rfl, h2, rfl, rfl, Or.inr ⟨d, u, r, hd, hu, hr, g2, ?_, rfl, rfl, rfl, rfl, rfl, rfl, rfl⟩⟩
    exact fun i hi => not_lt.mp (g5 i ((range'_cons hn).mpr hi))

end

end Verif.Cstrs
