import Verif.Model.Gwo
import Verif.Proof.Moead
import Verif.Props.Ihs
import Mathlib.Data.List.Forall2
import Mathlib.Tactic.FinCases

/-!
# Lemmas about `gwo`
-/

set_option autoImplicit false

namespace Verif.Props

open Verif Run Prob Pop Alg Rnd

variable {K σ : Type} [Field K] [LinearOrder K]

/-! ### The leaders -/

/-- insert into a strictly ascending list -/
def insAsc (f : Fl K) : List (Fl K) → List (Fl K)
  | [] => [f]
  | d :: r => if f < d then f :: d :: r else if f = d then d :: r else d :: insAsc f r

theorem mem_insAsc (f v : Fl K) (D : List (Fl K)) : v ∈ insAsc f D ↔ v = f ∨ v ∈ D := by
  induction D with
  | nil => simp [insAsc]
  | cons d r ih =>
    rw [insAsc]
    split
    · simp
    · split
      · rename_i h; subst h; simp
      · simp only [List.mem_cons, ih]; tauto

theorem insAsc_pairwise (f : Fl K) (D : List (Fl K)) (h : D.Pairwise (· < ·)) : (insAsc f D).Pairwise (· < ·) := by
  induction D with
  | nil => simp [insAsc]
  | cons d r ih =>
    rw [List.pairwise_cons] at h
    rw [insAsc]
    split
    · rename_i hf
      refine List.pairwise_cons.mpr ⟨?_, List.pairwise_cons.mpr h⟩
      intro a ha
      rcases List.mem_cons.mp ha with rfl | ha
      · exact hf
      · exact hf.trans (h.1 a ha)
    · split
      · exact List.pairwise_cons.mpr h
      · rename_i h1 h2
        refine List.pairwise_cons.mpr ⟨fun a ha => ?_, ih h.2⟩
        rcases (mem_insAsc f a r).mp ha with rfl | ha
        · exact lt_of_le_of_ne (not_lt.mp h1) (fun e => h2 e.symm)
        · exact h.1 a ha

/-- The three scores after the evaluation of points with the objectives `es`, when the scores were `a0`, `b0`, `d0` at the
start: the objectives below `a0` (NaN is not), without repetition and ascending, followed by the old scores; the first three
of that. -/
def Leaders3 (a0 b0 d0 : Fl K) (es : List (Fl K)) (t : Fl K × Fl K × Fl K) : Prop :=
  ∃ D : List (Fl K), D.Pairwise (· < ·) ∧ (∀ v, v ∈ D ↔ v ∈ es ∧ Fl.lt v a0 = true) ∧
    [t.1, t.2.1, t.2.2] = (D ++ [a0, b0, d0]).take 3

theorem leaders_nil (a0 b0 d0 : Fl K) : Leaders3 a0 b0 d0 [] (a0, b0, d0) := ⟨[], by simp, by simp, rfl⟩

theorem lt_nan_left (v : Fl K) : Fl.lt .nan v = false := by cases v <;> rfl
theorem lt_nan_right (v : Fl K) : Fl.lt v .nan = false := by cases v <;> rfl

theorem leaders_step {a0 b0 d0 : Fl K} (hba : b0 ≤ a0) (hdb : d0 ≤ b0) {es : List (Fl K)} {c : GwoVars K}
    (h : Leaders3 a0 b0 d0 es (c.al.1, c.be.1, c.de.1)) (f : Fl K) (x : List (Fl K)) {c' : GwoVars K}
    (hc : c' = gwoThird f x (gwoSecond f x (gwoFirst f x c))) : Leaders3 a0 b0 d0 (es ++ [f]) (c'.al.1, c'.be.1, c'.de.1) := by
  obtain ⟨D, hD, hm, ht⟩ := h
  refine ⟨if Fl.lt f a0 then insAsc f D else D, ?_, ?_, ?_⟩
  · split
    · exact insAsc_pairwise f D hD
    · exact hD
  · intro v
    split
    · rename_i hf
      rw [mem_insAsc, hm]
      simp only [List.mem_append, List.mem_singleton]
      constructor
      · rintro (rfl | ⟨h1, h2⟩)
        · exact ⟨Or.inr rfl, hf⟩
        · exact ⟨Or.inl h1, h2⟩
      · rintro ⟨h1 | rfl, h2⟩
        · exact Or.inr ⟨h1, h2⟩
        · exact Or.inl rfl
    · rename_i hf
      rw [hm]
      simp only [List.mem_append, List.mem_singleton]
      constructor
      · rintro ⟨h1, h2⟩; exact ⟨Or.inl h1, h2⟩
      · rintro ⟨h1 | rfl, h2⟩
        · exact ⟨h1, h2⟩
        · exact absurd h2 hf
  · subst hc
    obtain ⟨xs, ⟨a, pa⟩, ⟨b, pb⟩, ⟨d, pd⟩, log⟩ := c
    simp only at ht
    by_cases hfn : f = .nan
    · subst hfn
      simpa [gwoFirst, gwoSecond, gwoThird, Fl.gt, lt_nan_left, lt_nan_right] using ht
    by_cases han : a0 = .nan
    · subst han
      have : D = [] := List.eq_nil_iff_forall_not_mem.mpr fun v hv => by
        have := ((hm v).mp hv).2; simp [lt_nan_right] at this
      subst this
      simp only [List.nil_append, List.take, List.cons.injEq, and_true] at ht
      obtain ⟨rfl, rfl, rfl⟩ := ht
      simp [gwoFirst, gwoSecond, gwoThird, Fl.gt, lt_nan_left, lt_nan_right]
    have hle : ∀ v : Fl K, v ≤ a0 → v ≠ .nan := by
      rintro v hv rfl
      exact han (le_antisymm (Fl.le_nan _) hv)
    have hbn := hle b0 hba
    have hdn := hle d0 (hdb.trans hba)
    have hDn : ∀ v ∈ D, v ≠ .nan ∧ v < a0 := by
      intro v hv
      have h1 := ((hm v).mp hv).2
      have h2 : v ≠ .nan := by rintro rfl; simp [lt_nan_left] at h1
      exact ⟨h2, (Fl.lt_iff h2 han).mp h1⟩
    match D, hD, hDn, ht with
    | [], _, _, ht =>
      simp only [List.nil_append, List.take, List.cons.injEq, and_true] at ht
      obtain ⟨rfl, rfl, rfl⟩ := ht
      simp only [gwoFirst, gwoSecond, gwoThird, Fl.gt, insAsc, Bool.and_eq_true, Fl.lt_iff hfn han, Fl.lt_iff han hfn, Fl.lt_iff hfn hbn,
        Fl.lt_iff hbn hfn, Fl.lt_iff hfn hdn]
      by_cases h1 : f < a
      · simp [h1, h1.le, Fl.lt_iff hfn hfn, Fl.lt_iff han hfn, not_lt.mpr h1.le]
      · have h2 : ¬ f < b := fun h => h1 (h.trans_le hba)
        have h3 : ¬ f < d := fun h => h1 (h.trans_le (hdb.trans hba))
        simp [h1, h2, h3, Fl.lt_iff hfn hbn, Fl.lt_iff hfn hdn]
    | [d1], hD, hDn, ht =>
      simp only [List.cons_append, List.nil_append, List.take, List.cons.injEq, and_true] at ht
      obtain ⟨rfl, rfl, rfl⟩ := ht
      obtain ⟨h1n, h1a⟩ := hDn a (by simp)
      rcases lt_trichotomy f a with h | h | h
      · have := h.trans h1a
        simp [gwoFirst, gwoSecond, gwoThird, Fl.gt, insAsc, Fl.lt_iff, hfn, h1n, han, hbn, h, this, not_lt.mpr h.le]
      · subst h
        simp [gwoFirst, gwoSecond, gwoThird, Fl.gt, insAsc, Fl.lt_iff, hfn, han, hbn, h1a]
      · by_cases h2 : f < b
        · simp [gwoFirst, gwoSecond, gwoThird, Fl.gt, insAsc, Fl.lt_iff, hfn, h1n, han, hbn, h, h2, not_lt.mpr h.le, h.ne']
        · have h3 : ¬ f < d := fun h' => h2 (h'.trans_le hba)
          simp [gwoFirst, gwoSecond, gwoThird, Fl.gt, insAsc, Fl.lt_iff, hfn, h1n, han, hbn, h, h2, h3, not_lt.mpr h.le]
    | [d1, d2], hD, hDn, ht =>
      simp only [List.cons_append, List.nil_append, List.take, List.cons.injEq, and_true] at ht
      obtain ⟨rfl, rfl, rfl⟩ := ht
      obtain ⟨h1n, h1a⟩ := hDn a (by simp)
      obtain ⟨h2n, h2a⟩ := hDn b (by simp)
      have hab : a < b := by simpa using hD
      rcases lt_trichotomy f a with h | h | h
      · have := h.trans h1a
        simp [gwoFirst, gwoSecond, gwoThird, Fl.gt, insAsc, Fl.lt_iff, hfn, h1n, h2n, han, h, this, not_lt.mpr h.le]
      · subst h
        simp [gwoFirst, gwoSecond, gwoThird, Fl.gt, insAsc, Fl.lt_iff, hfn, h2n, han, h1a]
      · rcases lt_trichotomy f b with h' | h' | h'
        · have := h'.trans h2a
          simp [gwoFirst, gwoSecond, gwoThird, Fl.gt, insAsc, Fl.lt_iff, hfn, h1n, h2n, han, h, h', this, not_lt.mpr h.le, h.ne']
        · subst h'
          simp [gwoFirst, gwoSecond, gwoThird, Fl.gt, insAsc, Fl.lt_iff, hfn, h1n, han, h, h2a, not_lt.mpr h.le, h.ne']
        · by_cases h2 : f < d
          · simp [gwoFirst, gwoSecond, gwoThird, Fl.gt, insAsc, Fl.lt_iff, hfn, h1n, h2n, han, h, h', h2, not_lt.mpr h.le, h.ne', h'.ne', not_lt.mpr h'.le]
          · simp [gwoFirst, gwoSecond, gwoThird, Fl.gt, insAsc, Fl.lt_iff, hfn, h1n, h2n, han, h, h', h2, not_lt.mpr h.le, not_lt.mpr h'.le]
    | d1 :: d2 :: d3 :: r, hD, hDn, ht =>
      simp only [List.cons_append, List.take, List.cons.injEq, and_true] at ht
      obtain ⟨rfl, rfl, rfl⟩ := ht
      obtain ⟨h1n, h1a⟩ := hDn a (by simp)
      obtain ⟨h2n, h2a⟩ := hDn b (by simp)
      obtain ⟨h3n, h3a⟩ := hDn d (by simp)
      have hab : a < b := by simp at hD; exact hD.1.1
      have hbd : b < d := by simp at hD; exact hD.2.1.1
      rcases lt_trichotomy f a with h | h | h
      · have := h.trans h1a
        simp [gwoFirst, gwoSecond, gwoThird, Fl.gt, insAsc, Fl.lt_iff, hfn, h1n, h2n, han, h, this, not_lt.mpr h.le]
      · subst h
        simp [gwoFirst, gwoSecond, gwoThird, Fl.gt, insAsc, Fl.lt_iff, hfn, h2n, han, h1a]
      · rcases lt_trichotomy f b with h' | h' | h'
        · have := h'.trans h2a
          simp [gwoFirst, gwoSecond, gwoThird, Fl.gt, insAsc, Fl.lt_iff, hfn, h1n, h2n, han, h, h', this, not_lt.mpr h.le, h.ne']
        · subst h'
          simp [gwoFirst, gwoSecond, gwoThird, Fl.gt, insAsc, Fl.lt_iff, hfn, h1n, han, h, h2a, not_lt.mpr h.le, h.ne']
        · rcases lt_trichotomy f d with h2 | h2 | h2
          · have := h2.trans h3a
            simp [gwoFirst, gwoSecond, gwoThird, Fl.gt, insAsc, Fl.lt_iff, hfn, h1n, h2n, h3n, han, h, h', h2, this, not_lt.mpr h.le, h.ne', h'.ne', not_lt.mpr h'.le]
          · subst h2
            simp [gwoFirst, gwoSecond, gwoThird, Fl.gt, insAsc, Fl.lt_iff, hfn, h1n, h2n, han, h, h', h3a, not_lt.mpr h.le, h.ne', h'.ne', not_lt.mpr h'.le]
          · by_cases h3 : f < a0
            · simp [gwoFirst, gwoSecond, gwoThird, Fl.gt, insAsc, Fl.lt_iff, hfn, h1n, h2n, h3n, han, h, h', h2, h3, not_lt.mpr h.le, h.ne', h'.ne', not_lt.mpr h'.le, h2.ne', not_lt.mpr h2.le]
            · simp [gwoFirst, gwoSecond, gwoThird, Fl.gt, insAsc, Fl.lt_iff, hfn, h1n, h2n, h3n, han, h, h', h2, h3, not_lt.mpr h.le, not_lt.mpr h'.le, not_lt.mpr h2.le]

/-! ### Where the agents go -/

/-- `y` is the new component: the mean of three pulls, one from each leader, each with two random numbers from [0, 1], cut at
the bounds -/
def PulledTo (op : Fl.Ops K) (a pa pb pd x l u y : Fl K) : Prop :=
  ∃ r : Fin 6 → K, (∀ i, 0 ≤ r i ∧ r i ≤ 1) ∧
    y = stick1 l u (op.div (op.add (op.add (gwoPull op a pa x (.fin (r 0)) (.fin (r 1))) (gwoPull op a pb x (.fin (r 2)) (.fin (r 3))))
      (gwoPull op a pd x (.fin (r 4)) (.fin (r 5)))) (op.add (op.add op.one op.one) op.one))

/-- the same for all components -/
def PulledAll (op : Fl.Ops K) (P : AProb K) (a : Fl K) (pa pb pd x y : List (Fl K)) : Prop :=
  y.length = x.length ∧ ∀ (k : Nat) (ka kb kd kx l u w : Fl K), pa[k]? = some ka → pb[k]? = some kb → pd[k]? = some kd →
    x[k]? = some kx → P.lb[k]? = some l → P.ub[k]? = some u → y[k]? = some w → PulledTo op a ka kb kd kx l u w

theorem stick_comp (lb ub x : List (Fl K)) (h1 : lb.length = x.length) (h2 : ub.length = x.length) :
    ∃ y, forceBoundsStick x lb ub = .ok y ∧ y.length = x.length ∧ ∀ (k : Nat) (l u v w : Fl K), lb[k]? = some l → ub[k]? = some u →
      x[k]? = some v → y[k]? = some w → w = stick1 l u v := by
  have := Outcome.range_sat (f := forceStickAt lb ub) (PrefixOk (fun i w => ∀ l u v : Fl K, lb[i]? = some l →
      ub[i]? = some u → x[i]? = some v → w = stick1 l u v) x) x.length x (prefixOk_zero _ _) ?_
  · obtain ⟨y, h3, h4⟩ := this
    exact ⟨y, h3, h4.1, fun k l u v w hl hu hv hw => h4.2.1 k w (List.getElem?_eq_some_iff.mp hv).1 hw l u v hl hu hv⟩
  · intro i y hi hy
    have e1 : i < lb.length := by omega
    have e2 : i < ub.length := by omega
    have e3 : i < y.length := by rw [hy.1]; exact hi
    unfold forceStickAt
    rw [Outcome.get_of_lt e1, Outcome.get_of_lt e2, Outcome.get_of_lt e3]
    simp only [Outcome.bind_ok]
    rw [Outcome.set_of_lt e3, Outcome.sat_ok]
    refine prefixOk_set hy ?_
    intro l u v hl hu hv
    rw [← hy.2.2 i le_rfl, List.getElem?_eq_getElem e3] at hv
    rw [List.getElem?_eq_getElem e1] at hl
    rw [List.getElem?_eq_getElem e2] at hu
    cases hl; cases hu; cases hv; rfl

section
variable [IsStrictOrderedRing K]

theorem wp_gwoDraw {v : Env K σ} {rep : K → Prop} (hg : v.g.Lawful rep) {a p x : Fl K} {Q : Fl K → σ → Prop} {E : Exn → σ → Prop}
    {e : σ} (h : ∀ (r1 r2 : K) e', 0 ≤ r1 ∧ r1 ≤ 1 → 0 ≤ r2 ∧ r2 ≤ 1 → Q (gwoPull v.op a p x (.fin r1) (.fin r2)) e') :
    wp (gwoDraw v a p x) Q E e := by
  unfold gwoDraw
  rw [wp_bind]
  refine Gen.wp_draw01 hg (fun r1 e1 h1 h1' => ?_)
  rw [wp_bind]
  refine Gen.wp_draw01 hg (fun r2 e2 h2 h2' => ?_)
  exact h r1 r2 e2 ⟨h1, h1'⟩ ⟨h2, h2'⟩

/-- the vector before the cut at the bounds -/
def PulledRaw (op : Fl.Ops K) (a pa pb pd x y : Fl K) : Prop :=
  ∃ r : Fin 6 → K, (∀ i, 0 ≤ r i ∧ r i ≤ 1) ∧
    y = op.div (op.add (op.add (gwoPull op a pa x (.fin (r 0)) (.fin (r 1))) (gwoPull op a pb x (.fin (r 2)) (.fin (r 3))))
      (gwoPull op a pd x (.fin (r 4)) (.fin (r 5)))) (op.add (op.add op.one op.one) op.one)

theorem wp_gwoGenes {v : Env K σ} {rep : K → Prop} (hg : v.g.Lawful rep) {a : Fl K} {pa pb pd x : List (Fl K)} {n : Nat}
    (hx : x.length = n) (ha : pa.length = n) (hb : pb.length = n) (hd : pd.length = n) {Q : List (Fl K) → σ → Prop}
    {E : Exn → σ → Prop} {e : σ}
    (h : ∀ y e', PrefixOk (fun k w => ∀ ka kb kd kx : Fl K, pa[k]? = some ka → pb[k]? = some kb → pd[k]? = some kd →
      x[k]? = some kx → PulledRaw v.op a ka kb kd kx w) x n y → Q y e') :
    wp ((List.range n).foldlM (gwoGene v a pa pb pd) x) Q E e := by
  refine (wp_range (fun i y _ => PrefixOk (fun k w => ∀ ka kb kd kx : Fl K, pa[k]? = some ka → pb[k]? = some kb → pd[k]? = some kd →
      x[k]? = some kx → PulledRaw v.op a ka kb kd kx w) x i y) n x e (prefixOk_zero _ _) ?_).mono (fun y e' hy => h y e' hy)
      (fun (_ : Exn) _ (h : E _ _) => h)
  intro i y e1 hi hy
  have e3 : i < y.length := by rw [hy.1, hx]; exact hi
  unfold gwoGene
  rw [wp_bind, wp_lift_get e3, wp_bind, wp_lift_get (by omega), wp_bind]
  refine wp_gwoDraw hg (fun r0 r1 e4 h0 h1 => ?_)
  rw [wp_bind, wp_lift_get (by omega), wp_bind]
  refine wp_gwoDraw hg (fun r2 r3 e5 h2 h3 => ?_)
  rw [wp_bind, wp_lift_get (by omega), wp_bind]
  refine wp_gwoDraw hg (fun r4 r5 e6 h4 h5 => ?_)
  dsimp only
  rw [wp_lift_set e3]
  refine prefixOk_set hy ?_
  intro ka kb kd kx hka hkb hkd hkx
  rw [← hy.2.2 i le_rfl, List.getElem?_eq_getElem e3] at hkx
  rw [List.getElem?_eq_getElem (by omega)] at hka hkb hkd
  cases hka; cases hkb; cases hkd; cases hkx
  refine ⟨![r0, r1, r2, r3, r4, r5], ?_, rfl⟩
  intro j
  fin_cases j <;> assumption

/-- Finite bounds, and arithmetic without overflow in which the constants 1 and 3 are numbers and 3 is not zero. -/
structure GwoNum (v : Env K σ) (P : AProb K) (A : Gwo) : Prop where
  finL : AllFin P.lb
  finU : AllFin P.ub
  ovf : NoOverflow v.op
  one : ∃ c : K, v.op.one = .fin c
  third : ∀ a : K, ∃ c, v.op.div (.fin a) (v.op.add (v.op.add v.op.one v.op.one) v.op.one) = .fin c
  rate : ∃ c : K, v.op.div (v.op.add v.op.one v.op.one) (.fin (A.gens : K)) = .fin c

omit [IsStrictOrderedRing K] in
theorem gwoA_fin {v : Env K σ} {P : AProb K} {A : Gwo} (h : GwoNum v P A) (gen : Nat) : ∃ c : K, gwoA v A gen = .fin c := by
  obtain ⟨o, ho⟩ := h.one
  obtain ⟨t, ht⟩ := h.ovf.add o o
  obtain ⟨q, hq⟩ := h.rate
  obtain ⟨m, hm⟩ := h.ovf.mul gen q
  obtain ⟨c, hc⟩ := h.ovf.sub t m
  refine ⟨c, ?_⟩
  unfold gwoA
  dsimp only
  rw [hq, hm, ho, ht, hc]

omit [IsStrictOrderedRing K] in
theorem gwoPull_fin {v : Env K σ} {P : AProb K} {A : Gwo} (h : GwoNum v P A) (a p x r1 r2 : K) :
    ∃ c : K, gwoPull v.op (.fin a) (.fin p) (.fin x) (.fin r1) (.fin r2) = .fin c := by
  obtain ⟨o, ho⟩ := h.one
  obtain ⟨t, ht⟩ := h.ovf.add o o
  obtain ⟨c1, h1⟩ := h.ovf.mul t a
  obtain ⟨c2, h2⟩ := h.ovf.mul c1 r1
  obtain ⟨c3, h3⟩ := h.ovf.sub c2 a
  obtain ⟨c4, h4⟩ := h.ovf.mul t r2
  obtain ⟨c5, h5⟩ := h.ovf.mul c4 p
  obtain ⟨c6, h6⟩ := h.ovf.sub c5 x
  obtain ⟨c7, h7⟩ := h.ovf.mul c3 (if c6 < 0 then -c6 else c6)
  obtain ⟨c8, h8⟩ := h.ovf.sub p c7
  refine ⟨c8, ?_⟩
  unfold gwoPull
  dsimp only
  rw [ho, ht, h1, h2, h3, h4, h5, h6]
  simp only [Fl.abs]
  rw [h7, h8]

omit [IsStrictOrderedRing K] in
theorem pulledRaw_fin {v : Env K σ} {P : AProb K} {A : Gwo} (h : GwoNum v P A) {a pa pb pd x : K} {y : Fl K}
    (hy : PulledRaw v.op (.fin a) (.fin pa) (.fin pb) (.fin pd) (.fin x) y) : ∃ c : K, y = .fin c := by
  obtain ⟨r, -, rfl⟩ := hy
  obtain ⟨c1, h1⟩ := gwoPull_fin h a pa x (r 0) (r 1)
  obtain ⟨c2, h2⟩ := gwoPull_fin h a pb x (r 2) (r 3)
  obtain ⟨c3, h3⟩ := gwoPull_fin h a pd x (r 4) (r 5)
  obtain ⟨c4, h4⟩ := h.ovf.add c1 c2
  obtain ⟨c5, h5⟩ := h.ovf.add c4 c3
  rw [h1, h2, h3, h4, h5]
  exact h.third c5

/-- One agent moves. -/
theorem wp_gwoMove {v : Env K σ} {rep : K → Prop} (hg : v.g.Lawful rep) {P : AProb K} (hP : SaneBounds P.lb P.ub P.nix)
    (hdim : P.info.nx = P.lb.length) {A : Gwo} {Num : Prop} (hN : Num → GwoNum v P A) {gen : Nat} {pa pb pd x : List (Fl K)}
    (hx : Made Num P x) (ha : Made Num P pa) (hb : Made Num P pb) (hd : Made Num P pd) {Q : List (Fl K) → σ → Prop}
    {E : Exn → σ → Prop} {e : σ}
    (h : ∀ y z e', Rnd.forceBoundsStick y P.lb P.ub = .ok z → Made Num P z → PulledAll v.op P (gwoA v A gen) pa pb pd x z → Q y e') :
    wp ((List.range P.info.nx).foldlM (gwoGene v (gwoA v A gen) pa pb pd) x) Q E e := by
  refine wp_gwoGenes hg hx.1 ha.1 hb.1 hd.1 (fun y e' hy => ?_)
  have hyl : y.length = P.lb.length := by rw [hy.1, hx.1, hdim]
  have hub : P.ub.length = P.lb.length := hP.len.symm
  obtain ⟨z, hz, hzl, hzc⟩ := stick_comp P.lb P.ub y hyl.symm (hub.trans hyl.symm)
  have hraw : ∀ (k : Nat) (ka kb kd kx w : Fl K), pa[k]? = some ka → pb[k]? = some kb → pd[k]? = some kd →
      x[k]? = some kx → y[k]? = some w → PulledRaw v.op (gwoA v A gen) ka kb kd kx w := by
    intro k ka kb kd kx w h1 h2 h3 h4 h5
    refine hy.2.1 k w ?_ h5 ka kb kd kx h1 h2 h3 h4
    have := (List.getElem?_eq_some_iff.mp h4).1
    rw [hx.1] at this; exact this
  refine h y z e' hz ⟨hzl.trans (hyl.trans hdim.symm), fun n => ?_⟩ ⟨hzl.trans hy.1, ?_⟩
  · have hn := hN n
    have hB : FiniteBox P := ⟨hP, hdim, hn.finL, hn.finU⟩
    obtain ⟨c, hc⟩ := gwoA_fin hn gen
    refine inBox0 (hzl.trans hyl) ?_
    intro i l u w hl hu hw
    have hi := (List.getElem?_eq_some_iff.mp hl).1
    have eq1 := List.getElem?_eq_getElem (l := y) (i := i) (by omega)
    have q1 := List.getElem?_eq_getElem (l := pa) (i := i) (by rw [ha.1, hdim]; exact hi)
    have q2 := List.getElem?_eq_getElem (l := pb) (i := i) (by rw [hb.1, hdim]; exact hi)
    have q3 := List.getElem?_eq_getElem (l := pd) (i := i) (by rw [hd.1, hdim]; exact hi)
    have q4 := List.getElem?_eq_getElem (l := x) (i := i) (by rw [hx.1, hdim]; exact hi)
    have key := hraw i _ _ _ _ _ q1 q2 q3 q4 eq1
    obtain ⟨c1, f1⟩ := allFin_of_box hB (ha.2 n) _ (List.mem_of_getElem? q1)
    obtain ⟨c2, f2⟩ := allFin_of_box hB (hb.2 n) _ (List.mem_of_getElem? q2)
    obtain ⟨c3, f3⟩ := allFin_of_box hB (hd.2 n) _ (List.mem_of_getElem? q3)
    obtain ⟨c4, f4⟩ := allFin_of_box hB (hx.2 n) _ (List.mem_of_getElem? q4)
    rw [f1, f2, f3, f4, hc] at key
    obtain ⟨c5, f5⟩ := pulledRaw_fin hn key
    rw [hzc i l u _ w hl hu eq1 hw]
    have ho := hP.ordered i l u hl hu
    have := stick1_spec ho.2.2 ho.2.1 (v := y[i]) (by rw [f5]; simp)
    exact ⟨this.1, this.2.1⟩
  · intro k ka kb kd kx l u w h1 h2 h3 h4 h5 h6 h7
    have hk := (List.getElem?_eq_some_iff.mp h5).1
    have eq1 := List.getElem?_eq_getElem (l := y) (i := k) (by omega)
    obtain ⟨r, hr, he⟩ := hraw k ka kb kd kx _ h1 h2 h3 h4 eq1
    refine ⟨r, hr, ?_⟩
    rw [hzc k l u _ w h5 h6 eq1 h7, he]

end

end Verif.Props
