import Verif.Model.Constrained
import Verif.Spec.Constrained

/-! Helper lemmas for constraint handling. -/

set_option autoImplicit false

namespace Verif.Con

open Verif Outcome Spec

section generic
variable {K : Type} [Field K] [LinearOrder K] [IsStrictOrderedRing K]

theorem within_iff (c t : Fl K) :
    Fl.le (Fl.stdMax (Fl.sub c t) (.fin 0)) (.fin 0) = true ↔ Within c t := by
  cases c <;> cases t <;>
    simp [Within, Fl.sub, Fl.neg, Fl.add, Fl.stdMax, Fl.lt, Fl.le, Fl.eq, Fl.isInf, Fl.le_def, Fl.cls]
  rename_i a b
  by_cases h : a < b
  · rw [if_pos h]; simp [le_of_lt h]
  · rw [if_neg h]
    rw [not_lt] at h
    simp only [decide_eq_true_eq]
    constructor
    · rintro (h2 | h2) <;> linarith
    · intro h2; right; linarith

open Classical in
/-- number of constraints met, by recursion -/
noncomputable def cnt (isEq : Bool) : List (Fl K) → List (Fl K) → Nat
  | c :: cs, t :: ts => (if Within (if isEq then Fl.abs c else c) t then 1 else 0) + cnt isEq cs ts
  | _, _ => 0

/-- zero or positive, infinite, or NaN -/
def NN : Fl K → Prop
  | .nan => True
  | .ninf => False
  | .fin a => 0 ≤ a
  | .pinf => True

theorem nn_max (a : Fl K) : NN (Fl.stdMax a (.fin 0)) := by
  cases a with
  | nan => simp [Fl.stdMax, Fl.lt, NN]
  | ninf => simp [Fl.stdMax, Fl.lt, NN]
  | pinf => simp [Fl.stdMax, Fl.lt, NN]
  | fin a =>
    by_cases h : a < 0
    · simp [Fl.stdMax, Fl.lt, NN, h]
    · simpa [Fl.stdMax, Fl.lt, NN, h] using not_lt.mp h

theorem nn_sq (a : Fl K) (h : NN a) : NN (Fl.mul a a) := by
  cases a <;> simp [NN, Fl.mul] at *
  exact mul_self_nonneg _

theorem nn_add (a b : Fl K) (ha : NN a) (hb : NN b) : NN (Fl.add a b) := by
  cases a <;> cases b <;> simp [NN, Fl.add] at *
  exact add_nonneg ha hb

theorem testLoop_spec (isEq : Bool) (cs ts : List (Fl K)) (h : cs.length ≤ ts.length) (n : Nat)
    (l : Fl K) (hl : NN l) :
    ∃ l', testLoop isEq cs ts n l = .ok (n + cnt isEq cs ts, l') ∧ NN l' := by
  classical
  induction cs generalizing ts n l with
  | nil => exact ⟨l, by simp [testLoop, cnt], hl⟩
  | cons c cs ih =>
    cases ts with
    | nil => simp at h
    | cons t ts =>
      unfold testLoop
      have h' : cs.length ≤ ts.length := by simpa using h
      simp only
      set err := Fl.stdMax (Fl.sub (if isEq = true then Fl.abs c else c) t) (.fin 0) with herr
      obtain ⟨l', e, hl'⟩ := ih ts h' (if Fl.le err (.fin 0) then n + 1 else n)
        (Fl.add l (Fl.mul err err)) (nn_add _ _ hl (nn_sq _ (nn_max _)))
      refine ⟨l', ?_, hl'⟩
      rw [e]
      have hw := within_iff (if isEq = true then Fl.abs c else c) t
      rw [← herr] at hw
      by_cases hc : Within (if isEq = true then Fl.abs c else c) t
      · rw [if_pos (hw.mpr hc)]
        simp only [cnt, if_pos hc]
        congr 2; omega
      · rw [if_neg (fun h => hc (hw.mp h))]
        simp only [cnt, if_neg hc]
        congr 2; omega

theorem cnt_eq (isEq : Bool) (cs ts : List (Fl K)) (h : cs.length ≤ ts.length) (P : Nat → Bool)
    (hP : ∀ i c t, cs[i]? = some c → ts[i]? = some t →
      (P i = true ↔ Within (if isEq then Fl.abs c else c) t)) :
    cnt isEq cs ts = ((List.range cs.length).filter P).length := by
  classical
  induction cs generalizing ts P with
  | nil => simp [cnt]
  | cons c cs ih =>
    cases ts with
    | nil => simp at h
    | cons t ts =>
      rw [List.length_cons, List.range_succ_eq_map, cnt]
      rw [ih ts (by simpa using h) (fun i => P (i + 1))]
      · rw [List.filter_cons]
        have h0 := hP 0 c t (by simp) (by simp)
        have hmap : (List.filter P (List.map Nat.succ (List.range cs.length))).length =
            (List.filter (fun i => P (i + 1)) (List.range cs.length)).length := by
          rw [List.filter_map, List.length_map]; rfl
        by_cases hc : Within (if isEq = true then Fl.abs c else c) t
        · rw [if_pos hc, if_pos (h0.mpr hc), List.length_cons, hmap]; omega
        · rw [if_neg hc, if_neg (fun h => hc (h0.mp h)), hmap]; omega
      · intro i c' t' hc ht
        exact hP (i + 1) c' t' (by simpa using hc) (by simpa using ht)

theorem cnt_split (nobj nec nic : Nat) (f tol : List (Fl K))
    (hf : f.length = nobj + nec + nic) (ht : tol.length = nec + nic) :
    cnt true ((f.drop nobj).take nec) tol + cnt false (f.drop (nobj + nec)) (tol.drop nec) =
      numMet nobj nec (nec + nic) f tol := by
  classical
  unfold numMet
  rw [List.range_add, List.filter_append, List.length_append]
  have hlen1 : ((f.drop nobj).take nec).length = nec := by simp; omega
  have hlen2 : (f.drop (nobj + nec)).length = nic := by simp; omega
  congr 1
  · rw [cnt_eq true _ tol (by rw [hlen1]; omega) (fun i => decide (Meets nobj nec f tol i)), hlen1]
    intro i c t hc ht'
    have hi : i < nec := by
      have := (List.getElem?_eq_some_iff.mp hc).1; omega
    rw [List.getElem?_take_of_lt hi, List.getElem?_drop] at hc
    simp only [decide_eq_true_eq, Meets, hc, ht', hi, if_true]
    constructor
    · rintro ⟨c', t', hc', ht', h⟩; cases hc'; cases ht'; exact h
    · exact fun h => ⟨c, t, rfl, rfl, h⟩
  · rw [cnt_eq false _ (tol.drop nec) (by simp; omega)
      (fun i => decide (Meets nobj nec f tol (nec + i))), hlen2, List.filter_map, List.length_map]
    · rfl
    intro i c t hc ht'
    rw [List.getElem?_drop] at hc ht'
    have : ¬ (nec + i < nec) := by omega
    simp only [decide_eq_true_eq, Meets, ht', this, if_false, ← Nat.add_assoc, hc]
    constructor
    · rintro ⟨c', t', hc', ht', h⟩; cases hc'; cases ht'; exact h
    · exact fun h => ⟨c, t, rfl, rfl, h⟩

theorem testCons_spec (sq : Fl K → Fl K) (isEq : Bool) (cs ts : List (Fl K))
    (h : cs.length ≤ ts.length) :
    ∃ l, testCons sq isEq cs ts = .ok (cnt isEq cs ts, sq l) ∧ NN l ∧ (cs = [] → l = .fin 0) := by
  obtain ⟨l, e, hl⟩ := testLoop_spec isEq cs ts h 0 (.fin 0) (by simp [NN])
  refine ⟨l, by simp [testCons, e], hl, ?_⟩
  rintro rfl
  simp [testLoop] at e
  exact e.2.symm

theorem numMet_le (nobj nec nc : Nat) (f tol : List (Fl K)) : numMet nobj nec nc f tol ≤ nc := by
  unfold numMet
  exact (List.length_filter_le _ _).trans (by simp)

theorem numMet_eq_iff (nobj nec nc : Nat) (f tol : List (Fl K)) :
    numMet nobj nec nc f tol = nc ↔ ∀ i, i < nc → Meets nobj nec f tol i := by
  classical
  unfold numMet
  have : (List.filter (fun i => decide (Meets nobj nec f tol i)) (List.range nc)).length = nc ↔
      (List.filter (fun i => decide (Meets nobj nec f tol i)) (List.range nc)).length
        = (List.range nc).length := by simp
  rw [this, List.length_filter_eq_length_iff]
  simp

/-- Valid arguments of `compare_fc` for one fitness vector. -/
def Valid (f : List (Fl K)) (neq : Nat) (tol : List (Fl K)) : Prop :=
  f.length = tol.length + 1 ∧ neq ≤ tol.length

/-- Data computed by `compare_fc` for one fitness vector. -/
structure Parts (sq : Fl K → Fl K) (f : List (Fl K)) (neq : Nat) (tol : List (Fl K))
    (n : Nat) (e i : Fl K) : Prop where
  split : ∃ a b, testCons sq true ((f.drop 1).take neq) tol = .ok (a, sq e) ∧
    testCons sq false (f.drop (1 + neq)) (tol.drop neq) = .ok (b, sq i) ∧ a + b = n
  hn : n = numMet 1 neq tol.length f tol
  he : NN e
  hi : NN i
  he0 : neq = 0 → e = .fin 0
  hi0 : neq = tol.length → i = .fin 0

theorem parts_exist (sq : Fl K → Fl K) {f : List (Fl K)} {neq : Nat} {tol : List (Fl K)}
    (h : Valid f neq tol) : ∃ n e i, Parts sq f neq tol n e i := by
  obtain ⟨h1, h2⟩ := h
  obtain ⟨e, he, hne, he0⟩ := testCons_spec sq true ((f.drop 1).take neq) tol (by simp; omega)
  obtain ⟨i, hi, hni, hi0⟩ := testCons_spec sq false (f.drop (1 + neq)) (tol.drop neq)
    (by simp; omega)
  refine ⟨_, e, i, ⟨⟨_, _, he, hi, rfl⟩, ?_, hne, hni, ?_, ?_⟩⟩
  · rw [cnt_split 1 neq (tol.length - neq) f tol (by omega) (by omega)]
    congr 1; omega
  · intro h0; exact he0 (by simp [h0])
  · intro h0; exact hi0 (by apply List.drop_eq_nil_of_le; omega)

theorem compareFc_parts {sq : Fl K → Fl K} {f g : List (Fl K)} {neq : Nat} {tol : List (Fl K)}
    (hf : Valid f neq tol) (hg : Valid g neq tol) {n m : Nat} {e i e' i' : Fl K}
    (pf : Parts sq f neq tol n e i) (pg : Parts sq g neq tol m e' i') :
    compareFc sq f g neq tol = (if n = m then
      if n = tol.length then do
        let a ← Outcome.get f 0
        let b ← Outcome.get g 0
        pure (Fl.lessThanF a b)
      else pure (Fl.lessThanF (Fl.add (sq e) (sq i))
        (sq (Fl.add (Fl.mul (sq e') (sq e')) (Fl.mul (sq i') (sq i')))))
    else pure (decide (n > m))) := by
  obtain ⟨a, b, h1, h2, h3⟩ := pf.split
  obtain ⟨a', b', h1', h2', h3'⟩ := pg.split
  obtain ⟨l1, l2⟩ := hf
  obtain ⟨l1', l2'⟩ := hg
  unfold compareFc
  rw [if_neg (by omega), if_neg (by omega), if_neg (by omega), if_neg (by omega), h1, h2, h1', h2']
  simp only [bind_ok, h3, h3']
  rw [l1, Nat.add_sub_cancel]

theorem compareFc_throws {sq : Fl K → Fl K} {f g : List (Fl K)} {neq : Nat} {tol : List (Fl K)}
    (h : ¬ (Valid f neq tol ∧ Valid g neq tol)) :
    compareFc sq f g neq tol = .throws .invalidArgument := by
  unfold compareFc
  split
  · rfl
  · split
    · rfl
    · split
      · rfl
      · split
        · rfl
        · exfalso; apply h; unfold Valid; constructor <;> constructor <;> omega

theorem compareFc_isOk {sq : Fl K → Fl K} {f g : List (Fl K)} {neq : Nat} {tol : List (Fl K)}
    (hf : Valid f neq tol) (hg : Valid g neq tol) :
    ∃ r, compareFc sq f g neq tol = .ok r := by
  obtain ⟨n, e, i, pf⟩ := parts_exist sq hf
  obtain ⟨m, e', i', pg⟩ := parts_exist sq hg
  rw [compareFc_parts hf hg pf pg]
  split
  · split
    · rw [get_of_lt (by have := hf.1; omega), get_of_lt (by have := hg.1; omega)]
      exact ⟨_, rfl⟩
    · exact ⟨_, rfl⟩
  · exact ⟨_, rfl⟩

end generic

/-! ### Real numbers: the two violation measures -/

/-- the measure applied to the first argument: sum of the two norms -/
noncomputable def m1 (e i : Fl ℝ) : Fl ℝ := Fl.add (Fl.sqrtR e) (Fl.sqrtR i)
/-- the measure applied to the second argument: L2 norm of the two norms -/
noncomputable def m2 (e i : Fl ℝ) : Fl ℝ :=
  Fl.sqrtR (Fl.add (Fl.mul (Fl.sqrtR e) (Fl.sqrtR e)) (Fl.mul (Fl.sqrtR i) (Fl.sqrtR i)))

theorem nn_sqrtR (a : Fl ℝ) (h : NN a) : NN (Fl.sqrtR a) := by
  cases a <;> simp [NN, Fl.sqrtR] at *
  rw [if_neg (not_lt.mpr h)]
  exact Real.sqrt_nonneg _

theorem m2_le_m1 {e i : Fl ℝ} (he : NN e) (hi : NN i) : m2 e i ≤ m1 e i := by
  have he' := nn_sqrtR e he
  have hi' := nn_sqrtR i hi
  unfold m1 m2
  generalize Fl.sqrtR e = a at he'
  generalize Fl.sqrtR i = b at hi'
  cases a <;> cases b <;> simp [NN, Fl.add, Fl.mul, Fl.sqrtR] at *
  rename_i x y
  rw [if_neg (not_lt.mpr (by positivity)), Fl.fin_le_fin]
  apply Real.sqrt_le_iff.mpr
  constructor
  · positivity
  · nlinarith [mul_nonneg he' hi']

theorem m_eq_left {e i : Fl ℝ} (he : NN e) (hi : i = .fin 0) : m1 e i = m2 e i := by
  have he' := nn_sqrtR e he
  have hi' : Fl.sqrtR i = .fin 0 := by subst hi; simp [Fl.sqrtR]
  unfold m1 m2
  rw [hi']
  generalize Fl.sqrtR e = a at he'
  cases a <;> simp [NN, Fl.add, Fl.mul, Fl.sqrtR] at *
  rename_i x
  rw [if_neg (not_lt.mpr (by positivity)), Real.sqrt_mul_self he']

theorem m_eq_right {e i : Fl ℝ} (he : e = .fin 0) (hi : NN i) : m1 e i = m2 e i := by
  have hi' := nn_sqrtR i hi
  have he' : Fl.sqrtR e = .fin 0 := by subst he; simp [Fl.sqrtR]
  unfold m1 m2
  rw [he']
  generalize Fl.sqrtR i = a at hi'
  cases a <;> simp [NN, Fl.add, Fl.mul, Fl.sqrtR] at *
  rename_i x
  rw [if_neg (not_lt.mpr (by positivity)), Real.sqrt_mul_self hi']

/-- Closed form of `compare_fc` over the reals. -/
theorem compareFc_true_iff {f g : List (Fl ℝ)} {neq : Nat} {tol : List (Fl ℝ)}
    (hf : Valid f neq tol) (hg : Valid g neq tol) {n m : Nat} {e i e' i' : Fl ℝ}
    (pf : Parts Fl.sqrtR f neq tol n e i) (pg : Parts Fl.sqrtR g neq tol m e' i') :
    compareFc Fl.sqrtR f g neq tol = .ok true ↔
      (m < n ∨ (n = m ∧ ((n = tol.length ∧ ∃ a b, f[0]? = some a ∧ g[0]? = some b ∧ a < b) ∨
        (n ≠ tol.length ∧ m1 e i < m2 e' i')))) := by
  rw [compareFc_parts hf hg pf pg]
  have h0 : 0 < f.length := by have := hf.1; omega
  have h0' : 0 < g.length := by have := hg.1; omega
  by_cases hnm : n = m
  · subst hnm
    by_cases hn : n = tol.length
    · rw [if_pos rfl, if_pos hn, get_of_lt h0, get_of_lt h0']
      simp [hn, List.getElem?_eq_getElem h0, List.getElem?_eq_getElem h0']
    · rw [if_pos rfl, if_neg hn]
      simp [hn, m1, m2]
  · rw [if_neg hnm]
    simp [hnm]

end Verif.Con

namespace Verif.Con

open Verif Outcome Spec

theorem testLoop_fin (isEq : Bool) (cs ts : List ℝ) (h : cs.length ≤ ts.length) (n : Nat) (l : ℝ) :
    ∃ n', testLoop isEq (cs.map Fl.fin) (ts.map Fl.fin) n (.fin l) =
      .ok (n', .fin (l + ((cs.zipWith (fun c t => viol isEq c t ^ 2) ts).sum))) := by
  induction cs generalizing ts n l with
  | nil => exact ⟨n, by simp [testLoop]⟩
  | cons c cs ih =>
    cases ts with
    | nil => simp at h
    | cons t ts =>
      have herr : Fl.stdMax (Fl.sub (if isEq = true then Fl.abs (Fl.fin c) else Fl.fin c) (.fin t))
          (.fin 0) = .fin (viol isEq c t) := by
        have hb : (if isEq = true then Fl.abs (Fl.fin c) else Fl.fin c) =
            Fl.fin (if isEq = true then |c| else c) := by
          cases isEq
          · simp
          · simp only [if_true, Fl.abs]
            congr 1
            split
            · rename_i h0; rw [abs_of_neg h0]
            · rename_i h0; rw [abs_of_nonneg (not_lt.mp h0)]
        rw [hb]
        unfold viol
        generalize (if isEq = true then |c| else c) = x
        simp only [Fl.stdMax, Fl.sub, Fl.neg, Fl.add, Fl.lt, decide_eq_true_eq, ← sub_eq_add_neg]
        split
        · rename_i h0; rw [max_eq_right (le_of_lt h0)]
        · rename_i h0; rw [max_eq_left (not_lt.mp h0)]
      simp only [List.map_cons]
      unfold testLoop
      simp only [herr]
      obtain ⟨n', hn'⟩ := ih ts (by simpa using h)
        (if (Fl.fin (viol isEq c t)).le (Fl.fin 0) = true then n + 1 else n)
        (l + viol isEq c t * viol isEq c t)
      refine ⟨n', ?_⟩
      simp only [Fl.mul, Fl.add] at hn' ⊢
      rw [hn']
      simp only [List.zipWith_cons_cons, List.sum_cons]
      congr 3; ring

theorem sum_sq_nonneg (isEq : Bool) (cs ts : List ℝ) :
    0 ≤ (cs.zipWith (fun c t => viol isEq c t ^ 2) ts).sum := by
  induction cs generalizing ts with
  | nil => simp
  | cons c cs ih =>
    cases ts with
    | nil => simp
    | cons t ts =>
      simp only [List.zipWith_cons_cons, List.sum_cons]
      have := ih ts
      positivity

theorem testCons_fin (isEq : Bool) (cs ts : List ℝ) (h : cs.length ≤ ts.length) :
    ∃ n', testCons Fl.sqrtR isEq (cs.map Fl.fin) (ts.map Fl.fin) =
      .ok (n', .fin (Real.sqrt ((cs.zipWith (fun c t => viol isEq c t ^ 2) ts).sum))) := by
  obtain ⟨n, hn⟩ := testLoop_fin isEq cs ts h 0 0
  refine ⟨n, ?_⟩
  have h0 := sum_sq_nonneg isEq cs ts
  simp only [testCons, hn, bind_ok, pure_eq, zero_add, Fl.sqrtR, if_neg (not_lt.mpr h0)]

/-- For finite data the measures are the expected real numbers. -/
theorem measures_fin {x : ℝ} {c tol : List ℝ} {neq : Nat} (hc : c.length = tol.length)
    (hneq : neq ≤ tol.length) {n : Nat} {e i : Fl ℝ}
    (p : Parts Fl.sqrtR ((x :: c).map Fl.fin) neq (tol.map Fl.fin) n e i) :
    m2 e i = .fin (l2viol neq c tol) ∧
    m1 e i = .fin (Real.sqrt (((c.take neq).zipWith (fun c t => viol true c t ^ 2) (tol.take neq)).sum)
      + Real.sqrt (((c.drop neq).zipWith (fun c t => viol false c t ^ 2) (tol.drop neq)).sum)) := by
  obtain ⟨a, b, h1, h2, _⟩ := p.split
  have e1 : (((x :: c).map Fl.fin).drop 1).take neq = (c.take neq).map Fl.fin := by
    simp [List.map_take]
  have e2 : ((x :: c).map Fl.fin).drop (1 + neq) = (c.drop neq).map Fl.fin := by
    rw [Nat.add_comm]; simp [List.map_drop]
  have e3 : (tol.map Fl.fin).drop neq = (tol.drop neq).map Fl.fin := by simp [List.map_drop]
  obtain ⟨n1, t1⟩ := testCons_fin true (c.take neq) tol (by simp; omega)
  obtain ⟨n2, t2⟩ := testCons_fin false (c.drop neq) (tol.drop neq) (by simp; omega)
  rw [e1, t1] at h1
  rw [e2, e3, t2] at h2
  have hz : (c.take neq).zipWith (fun c t => viol true c t ^ 2) tol =
      (c.take neq).zipWith (fun c t => viol true c t ^ 2) (tol.take neq) := by
    have : ∀ (k : Nat) (l m : List ℝ), (l.take k).zipWith (fun c t => viol true c t ^ 2) m =
      (l.take k).zipWith (fun c t => viol true c t ^ 2) (m.take k) := by
      intro k
      induction k with
      | zero => simp
      | succ k ih =>
        intro l m
        cases l with
        | nil => simp
        | cons a l => cases m with
          | nil => simp
          | cons b m => simp [ih l m]
    exact this neq c tol
  rw [hz] at h1
  have s1 : Fl.sqrtR e = .fin (Real.sqrt (((c.take neq).zipWith (fun c t => viol true c t ^ 2)
      (tol.take neq)).sum)) := by
    have := (Outcome.ok.inj h1); exact (Prod.mk.inj this).2.symm
  have s2 : Fl.sqrtR i = .fin (Real.sqrt (((c.drop neq).zipWith (fun c t => viol false c t ^ 2)
      (tol.drop neq)).sum)) := by
    have := (Outcome.ok.inj h2); exact (Prod.mk.inj this).2.symm
  have n1 := sum_sq_nonneg true (c.take neq) (tol.take neq)
  have n2 := sum_sq_nonneg false (c.drop neq) (tol.drop neq)
  unfold m1 m2 l2viol
  rw [s1, s2]
  simp only [Fl.add, Fl.mul, Fl.sqrtR, Real.mul_self_sqrt n1, Real.mul_self_sqrt n2,
    if_neg (not_lt.mpr (add_nonneg n1 n2)), true_and]

end Verif.Con
