import Verif.Model.MetaProblem
import Verif.Props.Constrained
import Verif.Props.Translate

/-!
# C24, C25: the unconstrain meta-problem
-/

set_option autoImplicit false

namespace Verif.Props

open Verif Prob Meta Spec

section
variable {K : Type} [Field K] [LinearOrder K]

omit [Field K] [LinearOrder K] in
/-- **C24.** What the constructor accepts; everything else throws `std::invalid_argument`. -/
theorem C24_ctor (p : Inner K) (method : String) (w : List (Fl K)) :
    let nc := p.prob.nec + p.prob.nic
    let good := nc ≠ 0 ∧ ((method = "weighted" ∧ w.length = nc) ∨
      ((method = "death penalty" ∨ method = "kuri" ∨ method = "ignore_c" ∨ method = "ignore_o") ∧ w = []))
    ((∃ m, unconstrainCtor p method w = .ok m) ↔ good) ∧
    (unconstrainCtor p method w = .throws .invalidArgument ↔ ¬ good) := by
  intro nc good
  have key : (∃ m, unconstrainCtor p method w = .ok m ∧ good) ∨
      (unconstrainCtor p method w = .throws .invalidArgument ∧ ¬ good) := by
    unfold unconstrainCtor
    simp only
    change (∃ m, (if nc = 0 then _ else _) = _ ∧ good) ∨ ((if nc = 0 then _ else _) = _ ∧ ¬ good)
    by_cases h0 : nc = 0
    · right; rw [if_pos h0]; exact ⟨rfl, fun h => h.1 h0⟩
    rw [if_neg h0]
    by_cases h1 : w.length ≠ nc ∧ method = "weighted"
    · right
      change (if w.length ≠ nc ∧ method = "weighted" then _ else _) = _ ∧ _
      rw [if_pos h1]
      refine ⟨rfl, fun h => ?_⟩
      rcases h.2 with ⟨-, h⟩ | ⟨h, -⟩
      · exact h1.1 h
      · rw [h1.2] at h; simp at h
    change (∃ m, (if w.length ≠ nc ∧ method = "weighted" then _ else _) = _ ∧ good) ∨
      ((if w.length ≠ nc ∧ method = "weighted" then _ else _) = _ ∧ ¬ good)
    rw [if_neg h1]
    unfold methodOf
    have hw : w.length ≠ 0 ↔ ¬ w = [] := by simp
    by_cases a : method = "death penalty"
    · subst a; by_cases hw0 : w = [] <;> simp [good, h0, hw0]
    by_cases b : method = "kuri"
    · subst b; by_cases hw0 : w = [] <;> simp [good, h0, hw0]
    by_cases c : method = "weighted"
    · subst c
      have : w.length = nc := by by_contra hc; exact h1 ⟨hc, rfl⟩
      simp [good, h0, this]
    by_cases d : method = "ignore_c"
    · subst d; by_cases hw0 : w = [] <;> simp [good, h0, hw0]
    by_cases e : method = "ignore_o"
    · subst e; by_cases hw0 : w = [] <;> simp [good, h0, hw0]
    simp [a, b, c, d, e, good]
  rcases key with ⟨m, h1, h2⟩ | ⟨h1, h2⟩
  · rw [h1]; simp [h2]
  · rw [h1]; simp [h2]

end

section
variable {K : Type} [Field K] [LinearOrder K] [IsStrictOrderedRing K]

/-- Fitness `f` meets all constraints. -/
def AllMet (p : Problem K) (f : List (Fl K)) : Prop := ∀ i : Nat, i < p.nec + p.nic → Meets p.nobj p.nec f p.cTol i

omit [IsStrictOrderedRing K] in
theorem not_le_zero_of_within [IsStrictOrderedRing K] {c t : Fl K} :
    Fl.le (Fl.sub c t) (.fin 0) = true ↔ Within c t := by
  rw [← Con.within_iff]
  generalize Fl.sub c t = v
  cases v with
  | fin a => by_cases h : a < 0 <;> simp [Fl.stdMax, Fl.lt, Fl.le, Fl.eq, h]
  | _ => simp [Fl.stdMax, Fl.lt, Fl.le, Fl.eq]

theorem weightedPenalty_met (nec : Nat) (cs ts ws : List (Fl K)) (i : Nat) (acc : Fl K) (h1 : cs.length ≤ ts.length)
    (h2 : cs.length ≤ ws.length)
    (h : ∀ (j : Nat) (c t : Fl K), cs[j]? = some c → ts[j]? = some t → Within (if i + j < nec then Fl.abs c else c) t) :
    weightedPenalty nec i cs ts ws acc = .ok acc := by
  induction cs generalizing ts ws i with
  | nil => simp [weightedPenalty]
  | cons c cs ih =>
    match ts, ws, h1, h2 with
    | t :: ts, w :: ws, h1, h2 =>
      simp only [weightedPenalty]
      have h0 := h 0 c t rfl rfl
      rw [Nat.add_zero] at h0
      rw [not_le_zero_of_within.mpr h0]
      simp only [Bool.not_true, Bool.false_eq_true, if_false]
      refine ih ts ws (i + 1) (by simpa using h1) (by simpa using h2) (fun j c' t' hc ht => ?_)
      have := h (j + 1) c' t' (by simpa using hc) (by simpa using ht)
      rwa [show i + 1 + j = i + (j + 1) by omega]

omit [LinearOrder K] [IsStrictOrderedRing K] in
theorem fl_add_zero (a : Fl K) : Fl.add a (.fin 0) = a := by cases a <;> simp [Fl.add]

/-- **C24.** With every method but `"ignore_o"` a feasible point keeps its objectives. -/
theorem C24_feasible (sq : Fl K → Fl K) (big : K) (p : Problem K) (m : Method) (w f : List (Fl K))
    (hf : f.length = p.nf) (ht : p.cTol.length = p.nec + p.nic) (hw : m = .weighted → w.length = p.nec + p.nic)
    (hm : m ≠ .ignoreO) (h : AllMet p f) : penalize sq big p m w f = .ok (f.take p.nobj) := by
  have hf' : f.length = p.nobj + p.nec + p.nic := hf
  obtain ⟨r, hr, hr2⟩ := C14_feasible_iff_within sq p.nobj p.nec p.nic p.cTol f hf' ht
  have hrt : r = true := hr2.mpr h
  subst hrt
  unfold penalize
  rw [if_neg (by omega)]
  cases m with
  | death => simp only [hr, Outcome.bind_ok, if_true]
  | kuri => simp only [hr, Outcome.bind_ok, if_true]
  | ignoreC => rfl
  | ignoreO => exact absurd rfl hm
  | weighted =>
    simp only
    rw [weightedPenalty_met p.nec _ _ _ 0 _ (by simp; omega) (by simp [hw rfl]) (fun j c t hc htt => ?_)]
    · simp only [Outcome.bind_ok, fl_add_zero, List.map_id']
    · have hj : j < p.nec + p.nic := by
        have := (List.getElem?_eq_some_iff.mp hc).1
        simp at this; omega
      rw [List.getElem?_take_of_lt hj, List.getElem?_drop] at hc
      obtain ⟨c', t', e1, e2, e3⟩ := h j hj
      rw [hc] at e1; rw [htt] at e2; cases e1; cases e2
      rwa [Nat.zero_add]

/-- **C24.** `"death penalty"`: an infeasible point gets the largest double in every objective. -/
theorem C24_death (sq : Fl K → Fl K) (big : K) (p : Problem K) (w f : List (Fl K)) (hf : f.length = p.nf)
    (ht : p.cTol.length = p.nec + p.nic) (h : ¬ AllMet p f) :
    penalize sq big p .death w f = .ok (List.replicate p.nobj (.fin big)) := by
  have hf' : f.length = p.nobj + p.nec + p.nic := hf
  obtain ⟨r, hr, hr2⟩ := C14_feasible_iff_within sq p.nobj p.nec p.nic p.cTol f hf' ht
  have hrt : r = false := by
    cases r with
    | false => rfl
    | true => exact absurd (hr2.mp rfl) h
  subst hrt
  unfold penalize
  rw [if_neg (by omega)]
  simp only [hr, Outcome.bind_ok]
  rfl

/-- **C24.** `"kuri"`: an infeasible point gets a penalty that depends on the number of constraints met only. It is
positive, at most the largest double, and smaller the more constraints are met. -/
theorem C24_kuri (sq : Fl K → Fl K) {big : K} (hbig : 0 < big) (p : Problem K) (w f : List (Fl K)) (hf : f.length = p.nf)
    (ht : p.cTol.length = p.nec + p.nic) (h : ¬ AllMet p f) :
    ∃ v, penalize sq big p .kuri w f = .ok (List.replicate p.nobj (.fin v)) ∧ 0 < v ∧ v ≤ big ∧
      ∀ g : List (Fl K), g.length = p.nf → ¬ AllMet p g →
        ∃ v', penalize sq big p .kuri w g = .ok (List.replicate p.nobj (.fin v')) ∧
          (v < v' ↔ numMet p.nobj p.nec (p.nec + p.nic) g p.cTol < numMet p.nobj p.nec (p.nec + p.nic) f p.cTol) := by
  have key : ∀ g : List (Fl K), g.length = p.nf → ¬ AllMet p g → penalize sq big p .kuri w g =
      .ok (List.replicate p.nobj (.fin (big * (1 - ((numMet p.nobj p.nec (p.nec + p.nic) g p.cTol : Nat) : K) /
        ((p.nec + p.nic : Nat) : K))))) ∧ numMet p.nobj p.nec (p.nec + p.nic) g p.cTol < p.nec + p.nic := by
    intro g hg hn
    have hg' : g.length = p.nobj + p.nec + p.nic := hg
    obtain ⟨r, hr, hr2⟩ := C14_feasible_iff_within sq p.nobj p.nec p.nic p.cTol g hg' ht
    have hrt : r = false := by
      cases r with
      | false => rfl
      | true => exact absurd (hr2.mp rfl) hn
    subst hrt
    obtain ⟨l1, e1, -, -⟩ := Con.testCons_spec sq true ((g.drop p.nobj).take p.nec) p.cTol (by simp; omega)
    obtain ⟨l2, e2, -, -⟩ := Con.testCons_spec sq false (g.drop (p.nobj + p.nec)) (p.cTol.drop p.nec) (by simp; omega)
    refine ⟨?_, ?_⟩
    · unfold penalize
      rw [if_neg (by omega)]
      simp only [hr, Outcome.bind_ok, e1, e2]
      rw [if_neg (by decide), Con.cnt_split p.nobj p.nec p.nic g p.cTol hg' ht]
    · refine lt_of_le_of_ne (Con.numMet_le _ _ _ _ _) (fun he => hn ?_)
      exact (Con.numMet_eq_iff _ _ _ _ _).mp he
  obtain ⟨e, hlt⟩ := key f hf h
  have hnc : (0 : K) < ((p.nec + p.nic : Nat) : K) := by
    rw [Nat.cast_pos]; omega
  refine ⟨_, e, ?_, ?_, fun g hg hn => ⟨_, (key g hg hn).1, ?_⟩⟩
  · apply mul_pos hbig
    rw [sub_pos, div_lt_one hnc, Nat.cast_lt]; exact hlt
  · have : (0 : K) ≤ ((numMet p.nobj p.nec (p.nec + p.nic) f p.cTol : Nat) : K) / ((p.nec + p.nic : Nat) : K) := by positivity
    nlinarith
  · rw [mul_lt_mul_iff_right₀ hbig, sub_lt_sub_iff_left, div_lt_div_iff_of_pos_right hnc, Nat.cast_lt]

/-- **C24.** `"ignore_c"`: the objectives, whatever the constraints. -/
theorem C24_ignore_c (sq : Fl K → Fl K) (big : K) (p : Problem K) (w f : List (Fl K)) (hf : f.length = p.nf) :
    penalize sq big p .ignoreC w f = .ok (f.take p.nobj) := by
  have hf' : f.length = p.nobj + p.nec + p.nic := hf
  unfold penalize
  rw [if_neg (by omega)]

/-- Weighted sum of the violations of the constraints `c`, the first of which has number `i`. -/
def violSum (nec : Nat) : Nat → List K → List K → List K → K
  | i, c :: cs, t :: ts, w :: ws => w * max ((if i < nec then |c| else c) - t) 0 + violSum nec (i + 1) cs ts ws
  | _, _, _, _ => 0

theorem weightedPenalty_fin (nec : Nat) (cs ts ws : List K) (i : Nat) (acc : K) (h1 : cs.length ≤ ts.length)
    (h2 : cs.length ≤ ws.length) :
    weightedPenalty nec i (cs.map .fin) (ts.map .fin) (ws.map .fin) (.fin acc) = .ok (.fin (acc + violSum nec i cs ts ws)) := by
  induction cs generalizing ts ws i acc with
  | nil => simp [weightedPenalty, violSum]
  | cons c cs ih =>
    match ts, ws, h1, h2 with
    | t :: ts, w :: ws, h1, h2 =>
      simp only [List.map_cons, weightedPenalty]
      have habs : (if i < nec then Fl.abs (Fl.fin c) else Fl.fin c) = Fl.fin (if i < nec then |c| else c) := by
        split
        · simp only [Fl.abs]
          congr 1
          by_cases hc : c < 0
          · rw [if_pos hc, abs_of_neg hc]
          · rw [if_neg hc, abs_of_nonneg (not_lt.mp hc)]
        · rfl
      rw [habs]
      simp only [violSum]
      generalize (if i < nec then |c| else c) = a
      have hsub : Fl.sub (Fl.fin a) (Fl.fin t) = Fl.fin (a - t) := by simp [Fl.sub, Fl.neg, Fl.add, sub_eq_add_neg]
      rw [hsub]
      by_cases hle : a - t ≤ 0
      · have : Fl.le (Fl.fin (a - t)) (.fin 0) = true := (Fl.le_iff (by simp) (by simp)).mpr hle
        rw [this]
        simp only [Bool.not_true, Bool.false_eq_true, if_false]
        rw [ih ts ws (i + 1) acc (by simpa using h1) (by simpa using h2), max_eq_right hle, mul_zero, zero_add]
      · have : Fl.le (Fl.fin (a - t)) (.fin 0) = false := by
          rw [Bool.eq_false_iff]; exact fun h => hle ((Fl.le_iff (by simp) (by simp)).mp h)
        rw [this]
        simp only [Bool.not_false, if_true, Fl.mul, Fl.add]
        rw [ih ts ws (i + 1) _ (by simpa using h1) (by simpa using h2), max_eq_left (not_le.mp hle).le, add_assoc]

/-- **C24.** `"weighted"`: every objective is increased by the weighted sum of the violations (finite data). -/
theorem C24_weighted (sq : Fl K → Fl K) (big : K) (p : Problem K) (w f tol : List K) (hf : f.length = p.nf)
    (ht : p.cTol = tol.map .fin) (htl : tol.length = p.nec + p.nic) (hw : w.length = p.nec + p.nic) :
    penalize sq big p .weighted (w.map .fin) (f.map .fin) =
      .ok ((f.take p.nobj).map fun v => .fin (v + violSum p.nec 0 (f.drop p.nobj) tol w)) := by
  have hf' : f.length = p.nobj + p.nec + p.nic := hf
  unfold penalize
  rw [if_neg (by simp; omega)]
  simp only
  have : ((f.map Fl.fin).drop p.nobj).take (p.nec + p.nic) = (f.drop p.nobj).map Fl.fin := by
    rw [← List.map_drop, List.take_of_length_le (by simp; omega)]
  rw [this, ht, weightedPenalty_fin p.nec _ _ _ 0 0 (by simp; omega) (by simp; omega)]
  simp only [Outcome.bind_ok, zero_add, ← List.map_take, List.map_map]
  rfl

/-- **C24.** The number of values returned is `get_nobj()`. -/
theorem C24_length (sq : Fl K → Fl K) (big : K) (p : Problem K) (m : Method) (w f : List (Fl K)) (hf : f.length = p.nf)
    (ht : p.cTol.length = p.nec + p.nic) (hw : m = .weighted → w.length = p.nec + p.nic) :
    ∃ r, penalize sq big p m w f = .ok r ∧ r.length = unconstrainNobj p m := by
  have hf' : f.length = p.nobj + p.nec + p.nic := hf
  obtain ⟨r, hr, -⟩ := C14_feasible_iff_within sq p.nobj p.nec p.nic p.cTol f hf' ht
  obtain ⟨l1, e1, -, -⟩ := Con.testCons_spec sq true ((f.drop p.nobj).take p.nec) p.cTol (by simp; omega)
  obtain ⟨l2, e2, -, -⟩ := Con.testCons_spec sq false (f.drop (p.nobj + p.nec)) (p.cTol.drop p.nec) (by simp; omega)
  unfold penalize unconstrainNobj
  rw [if_neg (by omega)]
  have hlen : (f.take p.nobj).length = p.nobj := by simp; omega
  cases m with
  | death =>
    simp only [hr, Outcome.bind_ok]
    refine ⟨_, rfl, ?_⟩
    cases r <;> simp <;> omega
  | kuri =>
    simp only [hr, Outcome.bind_ok, e1, e2]
    cases r
    · exact ⟨_, if_neg (by decide), by simp⟩
    · exact ⟨_, if_pos rfl, by simp; omega⟩
  | ignoreC => exact ⟨_, rfl, by simp; omega⟩
  | ignoreO =>
    simp only [e1, e2, Outcome.bind_ok]
    exact ⟨_, rfl, by simp⟩
  | weighted =>
    have : ∀ (cs ts ws : List (Fl K)) (i : Nat) (acc : Fl K), cs.length ≤ ts.length → cs.length ≤ ws.length →
        ∃ r, weightedPenalty p.nec i cs ts ws acc = .ok r := by
      intro cs
      induction cs with
      | nil => intro ts ws i acc _ _; exact ⟨acc, by simp [weightedPenalty]⟩
      | cons c cs ih =>
        intro ts ws i acc h1 h2
        match ts, ws, h1, h2 with
        | t :: ts, w :: ws, h1, h2 => exact ih ts ws _ _ (by simpa using h1) (by simpa using h2)
    obtain ⟨pen, hp⟩ := this ((f.drop p.nobj).take (p.nec + p.nic)) p.cTol w 0 (.fin 0) (by simp; omega) (by simp [hw rfl])
    simp only [hp, Outcome.bind_ok]
    exact ⟨_, rfl, by simp; omega⟩

theorem nn_add_zero_iff {a b : Fl K} (ha : Con.NN a) (hb : Con.NN b) :
    Fl.add a b = .fin 0 ↔ a = .fin 0 ∧ b = .fin 0 := by
  cases a <;> cases b <;> simp_all [Fl.add, Con.NN]
  exact add_eq_zero_iff_of_nonneg ha hb

theorem nn_sq_zero {a : Fl K} (ha : Con.NN a) : Fl.mul a a = .fin 0 ↔ Fl.le a (.fin 0) = true := by
  cases a with
  | fin a =>
    rw [Fl.le_iff (by simp) (by simp)]
    simp only [Fl.mul, Fl.fin.injEq, mul_self_eq_zero]
    have ha' : 0 ≤ a := ha
    constructor
    · rintro rfl; exact le_refl _
    · intro h
      have : a ≤ 0 := h
      exact le_antisymm this ha'
  | ninf => exact absurd ha id
  | nan => simp [Fl.mul, Fl.le, Fl.lt, Fl.eq]
  | pinf => simp [Fl.mul, Fl.le, Fl.lt, Fl.eq]

theorem testLoop_zero (isEq : Bool) (cs ts : List (Fl K)) (h : cs.length ≤ ts.length) (n : Nat) (l : Fl K)
    (hl : Con.NN l) :
    ∃ l', Con.testLoop isEq cs ts n l = .ok (n + Con.cnt isEq cs ts, l') ∧ Con.NN l' ∧
      (l' = .fin 0 ↔ l = .fin 0 ∧ Con.cnt isEq cs ts = cs.length) ∧ Con.cnt isEq cs ts ≤ cs.length := by
  classical
  induction cs generalizing ts n l with
  | nil => exact ⟨l, by simp [Con.testLoop, Con.cnt], hl, by simp [Con.cnt], by simp [Con.cnt]⟩
  | cons c cs ih =>
    cases ts with
    | nil => simp at h
    | cons t ts =>
      unfold Con.testLoop
      have h' : cs.length ≤ ts.length := by simpa using h
      simp only
      have hw := Con.within_iff (if isEq = true then Fl.abs c else c) t
      have hnn := Con.nn_max (Fl.sub (if isEq = true then Fl.abs c else c) t)
      generalize Fl.stdMax (Fl.sub (if isEq = true then Fl.abs c else c) t) (.fin 0) = err at hw hnn
      obtain ⟨l', e, hl', hz, hle⟩ := ih ts h' (if Fl.le err (.fin 0) then n + 1 else n)
        (Fl.add l (Fl.mul err err)) (Con.nn_add _ _ hl (Con.nn_sq _ hnn))
      have herr : Fl.mul err err = .fin 0 ↔ Within (if isEq = true then Fl.abs c else c) t := by
        rw [← hw]; exact nn_sq_zero hnn
      refine ⟨l', ?_, hl', ?_, ?_⟩
      · rw [e]
        by_cases hc : Within (if isEq = true then Fl.abs c else c) t
        · rw [if_pos (hw.mpr hc)]; simp only [Con.cnt, if_pos hc]; congr 2; omega
        · rw [if_neg (fun h => hc (hw.mp h))]; simp only [Con.cnt, if_neg hc]; congr 2; omega
      · rw [hz, nn_add_zero_iff hl (Con.nn_sq _ hnn), herr]
        simp only [Con.cnt, List.length_cons]
        by_cases hc : Within (if isEq = true then Fl.abs c else c) t
        · rw [if_pos hc]
          constructor
          · rintro ⟨⟨h1, -⟩, h2⟩; exact ⟨h1, by omega⟩
          · rintro ⟨h1, h2⟩; exact ⟨⟨h1, hc⟩, by omega⟩
        · rw [if_neg hc]
          constructor
          · rintro ⟨⟨-, h1⟩, -⟩; exact absurd h1 hc
          · rintro ⟨-, h2⟩; omega
      · simp only [Con.cnt, List.length_cons]
        by_cases hc : Within (if isEq = true then Fl.abs c else c) t
        · rw [if_pos hc]; omega
        · rw [if_neg hc]; omega

end

/-- **C24.** `"ignore_o"`: one value, which is zero exactly when all constraints are met (reals with infinities and
NaN; violations so small that their squares are not representable are not covered). -/
theorem C24_ignore_o (big : ℝ) (p : Problem ℝ) (w f : List (Fl ℝ)) (hf : f.length = p.nf)
    (ht : p.cTol.length = p.nec + p.nic) :
    ∃ v, penalize Fl.sqrtR big p .ignoreO w f = .ok [v] ∧ (v = .fin 0 ↔ AllMet p f) := by
  have hf' : f.length = p.nobj + p.nec + p.nic := hf
  have hl1 : ((f.drop p.nobj).take p.nec).length = p.nec := by simp; omega
  have hl2 : (f.drop (p.nobj + p.nec)).length = p.nic := by simp; omega
  obtain ⟨l1, e1, n1, z1, b1⟩ := testLoop_zero true ((f.drop p.nobj).take p.nec) p.cTol (by simp; omega) 0 (.fin 0) (by simp [Con.NN])
  obtain ⟨l2, e2, n2, z2, b2⟩ := testLoop_zero false (f.drop (p.nobj + p.nec)) (p.cTol.drop p.nec) (by simp; omega) 0 (.fin 0)
    (by simp [Con.NN])
  have hs : ∀ a : Fl ℝ, Con.NN a → (Fl.sqrtR a = .fin 0 ↔ a = .fin 0) := by
    intro a ha
    cases a with
    | fin a =>
      have ha' : 0 ≤ a := ha
      simp [Fl.sqrtR, Real.sqrt_eq_zero ha', not_lt.mpr ha']
    | _ => simp [Fl.sqrtR]
  refine ⟨Fl.add (Fl.sqrtR l1) (Fl.sqrtR l2), ?_, ?_⟩
  · unfold penalize Con.testCons
    rw [if_neg (by omega)]
    simp only [e1, e2, Outcome.bind_ok, Outcome.pure_eq]
  · rw [nn_add_zero_iff (Con.nn_sqrtR _ n1) (Con.nn_sqrtR _ n2), hs _ n1, hs _ n2, z1, z2, hl1, hl2]
    have hc := Con.cnt_split p.nobj p.nec p.nic f p.cTol hf' ht
    have hall := Con.numMet_eq_iff p.nobj p.nec (p.nec + p.nic) f p.cTol
    unfold AllMet
    rw [← hall, ← hc]
    rw [hl1] at b1; rw [hl2] at b2
    constructor
    · rintro ⟨⟨-, h1⟩, -, h2⟩; omega
    · intro h; exact ⟨⟨rfl, by omega⟩, rfl, by omega⟩

/-! ## C25 -/

section
variable {K : Type} [Field K] [LinearOrder K] [IsStrictOrderedRing K]

/-- What `batch_fitness` does with the original fitnesses: each block is penalised. -/
theorem unconstrain_loop (sq : Fl K → Fl K) (big : K) (p : Problem K) (m : Method) (w orig : List (Fl K)) (n : Nat)
    (ho : orig.length = n * p.nf) (ht : p.cTol.length = p.nec + p.nic) (hw : m = .weighted → w.length = p.nec + p.nic)
    (hm : m ≠ .ignoreO ∨ p.nobj = 1) :
    ∃ ret, (List.range n).foldlM (batchStep sq big p m w orig) (List.replicate (n * p.nobj) (.fin 0)) = .ok ret ∧
      ret.length = n * p.nobj ∧ ∀ i < n, penalize sq big p m w (dvChunk p.nf orig i) = .ok (dvChunk p.nobj ret i) := by
  have key := Outcome.range_sat (f := batchStep sq big p m w orig)
    (fun k ret => ret.length = n * p.nobj ∧ ∀ i < k, penalize sq big p m w (dvChunk p.nf orig i) = .ok (dvChunk p.nobj ret i))
    n (List.replicate (n * p.nobj) (.fin 0)) (by simp) (by
      rintro i ret hi ⟨hr, hP⟩
      obtain ⟨e1, e2⟩ := bfe_slice_ok ho hi
      obtain ⟨z, hz, hzl⟩ := C24_length sq big p m w (dvChunk p.nf orig i) e2 ht hw
      have hzl' : z.length = p.nobj := by
        rw [hzl]; unfold unconstrainNobj
        rcases hm with hm | hm
        · rw [if_pos hm]
        · split
          · rfl
          · exact hm.symm
      have hle : i * p.nobj + p.nobj ≤ n * p.nobj := by
        have := Nat.mul_le_mul_right p.nobj hi
        rwa [Nat.succ_mul] at this
      obtain ⟨ret', h1, h2, h3⟩ := writeBlock_spec z ret (i * p.nobj) (by omega)
      have hs : Bfe.slice z 0 p.nobj = .ok z := by
        unfold Bfe.slice
        rw [if_pos (by omega), List.drop_zero, List.take_of_length_le (by omega)]
      unfold batchStep
      rw [e1]
      simp only [Outcome.bind_ok, hz, hs, h1, Outcome.sat_ok]
      rw [hzl'] at h3
      refine ⟨by omega, fun j hj => ?_⟩
      by_cases hji : j = i
      · subst hji
        rw [hz]; congr 1
        apply List.ext_getElem?
        intro k
        by_cases hk : k < p.nobj
        · rw [dvChunk_get hk, h3, if_pos (by omega)]; congr 1; omega
        · rw [List.getElem?_eq_none (by omega), List.getElem?_eq_none (by unfold dvChunk; simp; omega)]
      · rw [hP j (by omega)]; congr 1
        apply List.ext_getElem?
        intro k
        by_cases hk : k < p.nobj
        · rw [dvChunk_get hk, dvChunk_get hk, h3, if_neg]
          rintro ⟨h4, h5⟩
          have := Nat.mul_le_mul_right p.nobj (show j + 1 ≤ i by omega)
          rw [Nat.succ_mul] at this; omega
        · rw [List.getElem?_eq_none (by unfold dvChunk; simp; omega), List.getElem?_eq_none (by unfold dvChunk; simp; omega)])
  obtain ⟨ret, hret⟩ := key.isOk
  rw [hret, Outcome.sat_ok] at key
  exact ⟨ret, hret, key⟩

omit [Field K] [LinearOrder K] [IsStrictOrderedRing K] in
theorem flatten_chunks (d : Nat) (ret : List (Fl K)) (n : Nat) (h : ret.length = n * d) :
    ((List.range n).map (dvChunk d ret)).flatten = ret := by
  induction n generalizing ret with
  | zero =>
    rw [Nat.zero_mul] at h
    rw [List.eq_nil_of_length_eq_zero h]; rfl
  | succ n ih =>
    rw [List.range_succ_eq_map, List.map_cons, List.flatten_cons, List.map_map]
    have : dvChunk d ret ∘ Nat.succ = dvChunk d (ret.drop d) := by
      funext i
      simp only [Function.comp, dvChunk, List.drop_drop]
      congr 2; rw [Nat.succ_mul]; omega
    rw [this, ih (ret.drop d) (by rw [List.length_drop, h, Nat.succ_mul]; omega)]
    unfold dvChunk
    rw [Nat.zero_mul, List.drop_zero, List.take_append_drop]

/-- **C25 (part).** For every method but `"ignore_o"`, and for `"ignore_o"` on a problem with one objective: if the
batch evaluation of the inner problem agrees with single evaluation and every evaluation succeeds, the batch evaluation
of the unconstrained problem is the concatenation of its fitnesses. Missing: `"ignore_o"` with several objectives, see
`C25_ignore_o_undefined`. -/
theorem C25_batch_partial (sq : Fl K → Fl K) (big : K) (p : Inner K) (m : Method) (w xs : List (Fl K))
    (hp : BatchAgrees p) (hxs : xs.length % p.prob.nx = 0) (hnx : 0 < p.prob.nx) (hnf : 0 < p.prob.nf)
    (ht : p.prob.cTol.length = p.prob.nec + p.prob.nic)
    (hw : m = .weighted → w.length = p.prob.nec + p.prob.nic) (hm : m ≠ .ignoreO ∨ p.prob.nobj = 1) (F : Nat → List (Fl K))
    (hF : ∀ i < xs.length / p.prob.nx, p.fitness (dvChunk p.prob.nx xs i) = .ok (F i)) :
    ∃ ret, unconstrainBatch sq big p m w xs = .ok ret ∧
      (((List.range (xs.length / p.prob.nx)).mapM fun i => unconstrainFitness sq big p m w (dvChunk p.prob.nx xs i)) >>=
        fun l => .ok l.flatten) = .ok ret := by
  set n := xs.length / p.prob.nx with hn
  have hFl : ∀ i < n, (F i).length = p.prob.nf := by
    intro i hi
    have := hF i hi
    unfold Inner.fitness checkLen at this
    split at this
    · cases this
    · simp only [Outcome.bind_ok] at this
      cases hu : p.user (dvChunk p.prob.nx xs i) with
      | error e => rw [hu] at this; cases this
      | ok f =>
        rw [hu] at this
        simp only [ofUser, Outcome.bind_ok] at this
        split at this
        · cases this
        · simp only [Outcome.bind_ok, Outcome.ok.injEq] at this
          rename_i h; rw [← this]; exact not_not.mp h
  have hall : ofUser (p.ubatch xs) = .ok ((List.range n).map F).flatten := by
    rw [hp xs hxs, ← hn, Outcome.mapM_ok F _ (fun i hi => hF i (List.mem_range.mp hi))]; rfl
  have hol : ((List.range n).map F).flatten.length = n * p.prob.nf := by
    rw [List.length_flatten, List.map_map]
    have : (List.range n).map (List.length ∘ F) = List.replicate n p.prob.nf := by
      apply List.ext_getElem
      · simp
      · intro i h1 h2
        simp only [List.getElem_map, List.getElem_range, Function.comp, List.getElem_replicate]
        exact hFl i (by simpa using h1)
    rw [this]; simp
  have hbatch : p.batch xs = .ok ((List.range n).map F).flatten := by
    unfold Inner.batch checkInput checkOutput
    rw [if_neg (by simp [hxs]), hall]
    simp only [Outcome.bind_ok]
    rw [hol, if_neg (by simp), if_neg]
    · rfl
    · rw [Nat.mul_div_cancel _ hnf]; simp [hn]
  obtain ⟨ret, h1, h2, h3⟩ := unconstrain_loop sq big p.prob m w _ n hol ht hw hm
  refine ⟨ret, ?_, ?_⟩
  · unfold unconstrainBatch
    rw [hbatch]
    exact h1
  · have hch : ∀ i < n, dvChunk p.prob.nf ((List.range n).map F).flatten i = F i := by
      have gen : ∀ (G : Nat → List (Fl K)) (n i : Nat), (∀ j < n, (G j).length = p.prob.nf) → i < n →
          dvChunk p.prob.nf ((List.range n).map G).flatten i = G i := by
        intro G n
        induction n generalizing G with
        | zero => intro i _ hi; omega
        | succ n ih =>
          intro i hG hi
          rw [List.range_succ_eq_map, List.map_cons, List.flatten_cons, List.map_map]
          have h0 := hG 0 (by omega)
          cases i with
          | zero =>
            unfold dvChunk
            rw [Nat.zero_mul, List.drop_zero, List.take_append_of_le_length (by omega), List.take_of_length_le (by omega)]
          | succ i =>
            have := ih (G ∘ Nat.succ) i (fun j hj => hG (j + 1) (by omega)) (by omega)
            rw [Function.comp] at this
            rw [show G (i + 1) = G i.succ from rfl, ← this]
            unfold dvChunk
            rw [show (i + 1) * p.prob.nf = (G 0).length + i * p.prob.nf by rw [h0, Nat.succ_mul]; omega,
              List.drop_append]
            rw [List.drop_of_length_le (by omega), List.nil_append]
            congr 2; omega
      exact fun i hi => gen F n i hFl hi
    rw [Outcome.mapM_ok (dvChunk p.prob.nobj ret) _ (fun i hi => ?_)]
    · simp only [Outcome.bind_ok]
      rw [flatten_chunks _ _ _ h2]
    · have hi' := List.mem_range.mp hi
      unfold unconstrainFitness
      rw [hF i hi']
      simp only [Outcome.bind_ok]
      rw [← hch i hi']
      exact h3 i hi'

/-- The clause of C25 on `"ignore_o"` is false for every inner problem with two or more objectives: as soon as the batch
is not empty and the inner evaluation succeeds, memory outside the vector of the penalised fitness is read. -/
theorem C25_ignore_o_undefined (sq : Fl K → Fl K) (big : K) (p : Inner K) (w xs orig : List (Fl K))
    (hb : p.batch xs = .ok orig) (hobj : 2 ≤ p.prob.nobj) (ht : p.prob.cTol.length = p.prob.nec + p.prob.nic)
    (hn : 0 < xs.length / p.prob.nx) (hol : orig.length = xs.length / p.prob.nx * p.prob.nf) :
    unconstrainBatch sq big p .ignoreO w xs = .ub := by
  unfold unconstrainBatch
  rw [hb]
  simp only [Outcome.bind_ok]
  generalize hN : xs.length / p.prob.nx = N at *
  obtain ⟨n, rfl⟩ : ∃ n, N = n + 1 := ⟨N - 1, by omega⟩
  rw [List.range_succ_eq_map, List.foldlM_cons]
  obtain ⟨e1, e2⟩ := bfe_slice_ok hol (show 0 < n + 1 by omega)
  obtain ⟨z, hz, hzl⟩ := C24_length sq big p.prob .ignoreO w (dvChunk p.prob.nf orig 0) e2 ht (by simp)
  have hs : Bfe.slice z 0 p.prob.nobj = .ub := by
    unfold Bfe.slice
    rw [if_neg]
    rw [hzl]; unfold unconstrainNobj; simp; omega
  unfold batchStep
  rw [e1]
  simp only [Outcome.bind_ok, hz, hs, Outcome.bind_ub]

end

/-! ## Examples -/

/-- One objective or two, one equality, one inequality. -/
def penDemo (nobj : Nat) : Problem ℚ where
  lb := [.fin 0]
  ub := [.fin 1]
  nix := 0
  nobj := nobj
  nec := 1
  nic := 1
  gsDim := nobj + 2
  hsDim := List.replicate (nobj + 2) 1
  cTol := [.fin 0, .fin 1]

example : penalize id 1000 (penDemo 1) .kuri [] [.fin 7, .fin 0, .fin 3] = .ok [.fin 500] ∧
    penalize id 1000 (penDemo 1) .death [] [.fin 7, .fin 0, .nan] = .ok [.fin 1000] ∧
    penalize id 1000 (penDemo 2) .weighted [.fin 2, .fin 3] [.fin 7, .fin 8, .fin (-1), .fin 3] = .ok [.fin 15, .fin 16] := by
  decide +kernel

/-- inner problem for the examples: two objectives -/
def penInner : Inner ℚ where
  prob := penDemo 2
  user := fun _ => .ok [.fin 1, .fin 2, .fin 0, .fin 0]
  ubatch := fun ys => .ok (ys.flatMap fun _ => [.fin 1, .fin 2, .fin 0, .fin 0])

example : unconstrainBatch id 1000 penInner .death [] [.fin 0, .fin 1] = .ok [.fin 1, .fin 2, .fin 1, .fin 2] ∧
    unconstrainBatch id 1000 penInner .ignoreO [] [.fin 0] = .ub ∧
    unconstrainFitness id 1000 penInner .ignoreO [] [.fin 0] = .ok [.fin 0] := by
  decide +kernel

example : unconstrainCtor penInner "kuri" [] = .ok .kuri ∧ unconstrainCtor penInner "Kuri" [] = .throws .invalidArgument ∧
    unconstrainCtor penInner "weighted" [.fin 1] = .throws .invalidArgument := by decide +kernel

end Verif.Props
