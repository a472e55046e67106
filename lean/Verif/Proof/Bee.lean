import Verif.Model.Bee
import Verif.Proof.Sea
import Verif.Props.Nsga2

/-!
# Proofs about bee_colony: the parts of a generation
-/

set_option autoImplicit false

namespace Verif.Props

open Verif Run Prob Pop Alg

variable {K σ : Type} [Field K] [LinearOrder K]

/-! ### the largest counter -/

theorem beeMax_loop (trial : List Nat) : ∀ (n k mi : Nat), mi < k → k + n ≤ trial.length →
    (∃ tm, trial[mi]? = some tm ∧ ∀ (j t : Nat), j < k → trial[j]? = some t → t ≤ tm ∧ (t = tm → mi ≤ j)) →
    ∃ r tm, (List.range' k n).foldlM (beeMaxStep trial) mi = .ok r ∧ trial[r]? = some tm ∧ r < k + n ∧
      ∀ (j t : Nat), j < k + n → trial[j]? = some t → t ≤ tm ∧ (t = tm → r ≤ j) := by
  intro n
  induction n with
  | zero =>
    rintro k mi h1 _ ⟨tm, h3, h4⟩
    exact ⟨mi, tm, rfl, h3, h1, h4⟩
  | succ n ih =>
    rintro k mi h1 h2 ⟨tm, h3, h4⟩
    have hk : k < trial.length := by omega
    have hg : Outcome.get trial mi = .ok tm := Outcome.get_eq_ok_iff.mpr h3
    have hkk := List.getElem?_eq_getElem hk
    rw [List.range'_succ, List.foldlM_cons, beeMaxStep, Outcome.get_of_lt hk, hg]
    simp only [Outcome.bind_ok, Outcome.pure_eq]
    by_cases hc : trial[k] > tm
    · rw [if_pos hc]
      obtain ⟨r, t', e1, e2, e3, e4⟩ := ih (k + 1) k (by omega) (by omega) ⟨trial[k], hkk, fun j t hj ht => by
        by_cases e : j = k
        · subst e; rw [hkk] at ht; cases ht; exact ⟨le_rfl, fun _ => le_rfl⟩
        · have := (h4 j t (by omega) ht).1; exact ⟨by omega, fun h => by omega⟩⟩
      exact ⟨r, t', e1, e2, by omega, fun j t hj ht => e4 j t (by omega) ht⟩
    · rw [if_neg hc]
      obtain ⟨r, t', e1, e2, e3, e4⟩ := ih (k + 1) mi (by omega) (by omega) ⟨tm, h3, fun j t hj ht => by
        by_cases e : j = k
        · subst e; rw [hkk] at ht; cases ht; exact ⟨by omega, fun _ => by omega⟩
        · exact h4 j t (by omega) ht⟩
      exact ⟨r, t', e1, e2, by omega, fun j t hj ht => e4 j t (by omega) ht⟩

theorem beeMax_spec {trial : List Nat} {NP : Nat} (hl : trial.length = NP) (h2 : 2 ≤ NP) :
    ∃ m tm, beeMax trial NP = .ok m ∧ trial[m]? = some tm ∧
      ∀ (j t : Nat), trial[j]? = some t → t ≤ tm ∧ (t = tm → m ≤ j) := by
  have h0 := List.getElem?_eq_getElem (l := trial) (i := 0) (by omega)
  obtain ⟨r, t', e1, e2, e3, e4⟩ := beeMax_loop trial (NP - 1) 1 0 (by omega) (by omega) ⟨_, h0, fun j t hj ht => by
    have : j = 0 := by omega
    subst this; rw [h0] at ht; cases ht; exact ⟨le_rfl, fun _ => le_rfl⟩⟩
  refine ⟨r, t', e1, e2, fun j t ht => e4 j t ?_ ht⟩
  have := (List.getElem?_eq_some_iff.mp ht).1
  omega

/-! ### the candidate -/

/-- `w` is `t` shifted into `[l, u]` -/
def ShiftedInto (l u t w : Fl K) : Prop := (t < l → w = l) ∧ (u < t → w = u) ∧ (l ≤ t → t ≤ u → w = t)

/-- `y` differs from row `i` of `xs` in one component at most, which was moved along the difference to another row and
shifted into the bounds. -/
def BeeNeighbour (op : Fl.Ops K) (P : AProb K) (xs : List (List (Fl K))) (i : Nat) (y : List (Fl K)) : Prop :=
  ∃ (x z : List (Fl K)) (j k : Nat) (phi : K) (a b l u w : Fl K), xs[i]? = some x ∧ k ≠ i ∧ xs[k]? = some z ∧
    x[j]? = some a ∧ z[j]? = some b ∧ P.lb[j]? = some l ∧ P.ub[j]? = some u ∧ -1 ≤ phi ∧ phi ≤ 1 ∧
    ShiftedInto l u (op.add a (op.mul (.fin phi) (op.sub a b))) w ∧ y = x.set j w

theorem beeClamp_fin {l u t : K} (h : l ≤ u) :
    ∃ w, beeClamp (.fin l) (.fin u) (.fin t : Fl K) = .fin w ∧ l ≤ w ∧ w ≤ u ∧ (t < l → w = l) ∧ (u < t → w = u) ∧
      (l ≤ t → t ≤ u → w = t) := by
  unfold beeClamp
  have e1 : ∀ a b : K, Fl.lt (Fl.fin a) (Fl.fin b) = true ↔ a < b := fun a b => by simp [Fl.lt]
  have e2 : ∀ a b : K, Fl.gt (Fl.fin a) (Fl.fin b) = true ↔ b < a := fun a b => by simp [Fl.gt, Fl.lt]
  simp only [e1]
  by_cases h1 : t < l
  · simp only [if_pos h1, e2]
    rw [if_neg (not_lt.mpr h)]
    exact ⟨l, rfl, le_rfl, h, fun _ => rfl, fun h' => absurd (h'.trans h1) (not_lt.mpr h), fun h' => absurd h1 (not_lt.mpr h')⟩
  · simp only [if_neg h1, e2]
    by_cases h2 : u < t
    · rw [if_pos h2]
      exact ⟨u, rfl, h, le_rfl, fun h' => absurd h' h1, fun _ => rfl, fun _ h' => absurd h2 (not_lt.mpr h')⟩
    · rw [if_neg h2]
      exact ⟨t, rfl, not_lt.mp h1, not_lt.mp h2, fun h' => absurd h' h1, fun h' => absurd h' h2, fun _ _ => rfl⟩

section
variable [IsStrictOrderedRing K]

theorem wp_beeCandidate {v : Env K σ} {rep : K → Prop} (hg : v.g.Lawful rep) (hop : NoOverflow v.op) {P : AProb K}
    (hP : FiniteBox P) {NP : Nat} (h2 : 2 ≤ NP) {xs : List (List (Fl K))} (hxl : xs.length = NP)
    (hxs : ∀ x ∈ xs, InBox P.lb P.ub 0 x) {i : Nat} (hi : i < NP) {Q : List (Fl K) × Nat → σ → Prop} {E : Exn → σ → Prop} {e : σ}
    (hq : ∀ (x y : List (Fl K)) (j : Nat) (w : Fl K) (e' : σ), xs[i]? = some x → j < x.length → y = x.set j w →
      InBox P.lb P.ub 0 y → BeeNeighbour v.op P xs i y → Q (y, j) e') :
    wp (beeCandidate v P NP xs i) Q E e := by
  have hnx0 : 0 < P.lb.length := List.length_pos_iff.mpr hP.bounds.nonempty
  have hub := hP.bounds.len
  unfold beeCandidate
  rw [wp_bind, wp_lift_get (by omega), wp_bind]
  refine Gen.wp_drawNat hg (by omega) (fun j e1 _ hj => ?_)
  rw [wp_bind]
  refine Gen.wp_drawNat hg (by omega) (fun k e2 _ hk => ?_)
  rw [hP.nx] at hj
  dsimp only
  generalize hk' : (if k ≥ i then k + 1 else k) = k'
  have hki : k' ≠ i ∧ k' < NP := by rw [← hk']; split <;> omega
  rw [wp_bind]
  obtain ⟨c, hc⟩ := hop.sub 1 (-1)
  refine Gen.wp_drawReal hg (by linarith [zero_lt_one' K]) (by rw [hc]; rfl) (fun phi e3 hp1 hp2 => ?_)
  have hx := hxs xs[i] (List.getElem_mem _)
  have hz := hxs (xs[k']'(by omega)) (List.getElem_mem _)
  have hx1 := hx.1
  have hz1 := hz.1
  rw [wp_bind, wp_lift_get (by omega), wp_bind, wp_lift_get (by omega), wp_bind, wp_lift_get (by omega), wp_bind,
    wp_lift_get (by omega), wp_bind, wp_lift_get (by omega), wp_bind, wp_lift_set (by omega), wp_pure]
  obtain ⟨a, ha⟩ := allFin_of_box hP hx _ (List.getElem_mem (n := j) (by omega))
  obtain ⟨b, hb⟩ := allFin_of_box hP hz _ (List.getElem_mem (n := j) (by omega))
  obtain ⟨l, hl⟩ := hP.finL _ (List.getElem_mem (n := j) (by omega))
  obtain ⟨u, hu⟩ := hP.finU _ (List.getElem_mem (n := j) (by omega))
  have hlu : l ≤ u := by
    have := (hP.bounds.ordered j _ _ (List.getElem?_eq_getElem (by omega)) (List.getElem?_eq_getElem (by omega))).2.2
    rw [hl, hu] at this; simpa using this
  obtain ⟨d, hd⟩ := hop.sub a b
  obtain ⟨m, hm⟩ := hop.mul phi d
  obtain ⟨t, ht⟩ := hop.add a m
  obtain ⟨w, hw, w1, w2, w3, w4, w5⟩ := beeClamp_fin (t := t) hlu
  have ht' : v.op.add (Fl.fin a) (v.op.mul (Fl.fin phi) (v.op.sub (Fl.fin a) (Fl.fin b))) = Fl.fin t := by rw [hd, hm, ht]
  refine hq _ _ j _ e3 (List.getElem?_eq_getElem (by omega)) (by omega) rfl (inBox_set hx ?_) ?_
  · intro l' u' h3 h4
    rw [List.getElem?_eq_getElem (by omega), hl] at h3
    rw [List.getElem?_eq_getElem (by omega), hu] at h4
    cases h3; cases h4
    rw [ha, hb, hl, hu, ht', hw]
    simpa using ⟨w1, w2⟩
  · refine ⟨_, _, j, k', phi, _, _, _, _, _, List.getElem?_eq_getElem (by omega), hki.1, List.getElem?_eq_getElem (by omega),
      List.getElem?_eq_getElem (by omega), List.getElem?_eq_getElem (by omega), List.getElem?_eq_getElem (by omega),
      List.getElem?_eq_getElem (by omega), hp1, hp2, ?_, rfl⟩
    rw [ha, hb, hl, hu, ht', hw]
    refine ⟨fun h => ?_, fun h => ?_, fun h h' => ?_⟩
    · rw [w3 (by simpa using h)]
    · rw [w4 (by simpa using h)]
    · rw [w5 (by simpa using h) (by simpa using h')]

theorem wp_beeNewPoint {v : Env K σ} {rep : K → Prop} (hg : v.g.Lawful rep) (hop : NoOverflow v.op) {P : AProb K}
    (hP : FiniteBox P) {x : List (Fl K)} (hx : InBox P.lb P.ub 0 x) {E : Exn → σ → Prop} (e : σ) :
    wp ((List.range P.info.nx).foldlM (beeDraw v P) x) (fun y _ => InBox P.lb P.ub 0 y) E e := by
  refine wp_range (fun _ y _ => InBox P.lb P.ub 0 y) P.info.nx x e hx ?_
  intro i y e1 hi hy
  rw [hP.nx] at hi
  have hub := hP.bounds.len
  unfold beeDraw
  rw [wp_bind, wp_lift_get hi, wp_bind, wp_lift_get (by omega), wp_bind]
  obtain ⟨n1, n2, hle⟩ := hP.bounds.ordered i _ _ (List.getElem?_eq_getElem hi) (List.getElem?_eq_getElem (by omega))
  obtain ⟨a, ha⟩ := hP.finL _ (List.getElem_mem hi)
  obtain ⟨b, hb⟩ := hP.finU _ (List.getElem_mem (l := P.ub) (n := i) (by omega))
  unfold Rnd.uniformRealFromRange
  refine (wp_uniformReal hg true hle n2 n1 _).mono ?_ ?_
  · rintro w e2 ⟨_, h1, h2⟩
    have hylen := hy.1
    rw [wp_lift_set (by omega)]
    refine inBox_set hy ?_
    intro l u h3 h4
    rw [List.getElem?_eq_getElem hi] at h3
    rw [List.getElem?_eq_getElem (by omega)] at h4
    cases h3; cases h4
    exact ⟨h1, h2⟩
  · rintro e2 s ⟨_, hf⟩
    exfalso
    refine hf ?_
    rw [ha, hb]
    obtain ⟨c, hc⟩ := hop.sub b a
    exact ⟨rfl, rfl, by rw [hc]; rfl⟩

end

/-! ### the weights -/

/-- `fs`: the objectives -/
theorem beeSum_loop (op : Fl.Ops K) (fit : List (List (Fl K))) (fs : List (Fl K))
    (hf : ∀ (i : Nat) (a : Fl K), fs[i]? = some a → ∃ f : List (Fl K), fit[i]? = some f ∧ f[0]? = some a) :
    ∀ (n k : Nat) (p : List (Fl K)) (t : Fl K), k + n ≤ fs.length →
      (List.range' k n).foldlM (beeSumStep op fit) (p, t) =
        .ok (p ++ ((fs.drop k).take n).map (beeWeight op), (((fs.drop k).take n).map (beeWeight op)).foldl op.add t) := by
  intro n
  induction n with
  | zero => intro k p t _; simp
  | succ n ih =>
    intro k p t h
    have hk : k < fs.length := by omega
    obtain ⟨f, h1, h2⟩ := hf k _ (List.getElem?_eq_getElem hk)
    rw [List.range'_succ, List.foldlM_cons, beeSumStep, Outcome.get_eq_ok_iff.mpr h1]
    simp only [Outcome.bind_ok, Outcome.get_eq_ok_iff.mpr h2, Outcome.pure_eq]
    rw [ih (k + 1) _ _ (by omega), List.drop_eq_getElem_cons hk]
    simp only [List.take_succ_cons, List.map_cons, List.foldl_cons, List.append_assoc, List.singleton_append]

theorem beeWeights_eq (op : Fl.Ops K) {fit : List (List (Fl K))} {fs : List (Fl K)} {NP : Nat} (hl : fs.length = NP)
    (hf : ∀ (i : Nat) (a : Fl K), fs[i]? = some a → ∃ f : List (Fl K), fit[i]? = some f ∧ f[0]? = some a) :
    beeWeights op fit NP = .ok ((fs.map (beeWeight op)).map (fun w => op.div w ((fs.map (beeWeight op)).foldl op.add op.zero))) := by
  unfold beeWeights
  rw [List.range_eq_range', beeSum_loop op fit fs hf NP 0 [] op.zero (by omega)]
  simp only [List.drop_zero, Outcome.bind_ok, Outcome.pure_eq, List.nil_append]
  rw [← hl, List.take_length]

theorem beeWeights_ok (op : Fl.Ops K) {fit : List (List (Fl K))} {NP : Nat} (hl : fit.length = NP)
    (hf : ∀ f ∈ fit, f.length = 1) : ∃ w, beeWeights op fit NP = .ok w ∧ w.length = NP := by
  refine ⟨_, beeWeights_eq op (fs := fit.map (fun f => f.headD (.fin 0))) (by simpa using hl) ?_, by simpa using hl⟩
  intro i a h
  rw [List.getElem?_map, Option.map_eq_some_iff] at h
  obtain ⟨f, h1, rfl⟩ := h
  refine ⟨f, h1, ?_⟩
  have := hf f (List.mem_of_getElem? h1)
  match f, this with
  | [a], _ => rfl

end Verif.Props
