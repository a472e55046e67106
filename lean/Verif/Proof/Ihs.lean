import Verif.Model.Ihs
import Verif.Props.Nsga2
import Verif.Props.Bounds

/-!
# Helper lemmas for `Verif.Props.Ihs`
-/

set_option autoImplicit false

namespace Verif.Props

open Verif Run Prob Pop Alg Genetic MO Rnd Spec

variable {K σ : Type} [Field K] [LinearOrder K]

/-! ## Reflection, whatever the arithmetic -/

/-- `P` holds of the result if there is one; the only other outcome is that a loop did not end -/
def EndsWith {α : Type} (o : Outcome α) (P : α → Prop) : Prop := o = .nofuel ∨ o.Sat P

theorem ends_range {β : Type} {f : β → Nat → Outcome β} (I : Nat → β → Prop) (n : Nat) (b : β) (h0 : I 0 b)
    (hs : ∀ i b, i < n → I i b → EndsWith (f b i) (I (i + 1))) : EndsWith ((List.range n).foldlM f b) (I n) := by
  induction n with
  | zero => exact Or.inr ⟨b, rfl, h0⟩
  | succ n ih =>
    rw [List.range_succ, List.foldlM_append]
    rcases ih (fun i b hi h => hs i b (by omega) h) with h | ⟨c, h, hc⟩
    · left; rw [h]; rfl
    · rw [h]
      rcases hs n c (by omega) hc with h' | ⟨d, h', hd⟩
      · left; simp [h']
      · right; exact ⟨d, by simp [h'], hd⟩

/-- NaN or inside -/
def NanOrIn (l u w : Fl K) : Prop := w = .nan ∨ l ≤ w ∧ w ≤ u

theorem reflect_ends {op : Fl.Ops K} {l u : Fl K} (hl : l ≠ .nan) (hu : u ≠ .nan) (G : Fl K → Prop)
    (hG : ∀ w, G w → G (reflectStep op l u w)) : ∀ (fuel : Nat) (w : Fl K), G w →
    EndsWith (reflect op l u fuel w) (fun r => NanOrIn l u r ∧ G r) := by
  have done : ∀ (w : Fl K), (Fl.lt w l || Fl.gt w u) ≠ true → NanOrIn l u w := by
    intro w h
    by_cases hw : w = .nan
    · exact Or.inl hw
    · right
      rw [ne_eq, Bool.not_eq_true, Bool.or_eq_false_iff] at h
      unfold Fl.gt at h
      constructor
      · by_contra hc
        have := (Fl.lt_iff hw hl).mpr (not_le.mp hc)
        rw [h.1] at this; cases this
      · by_contra hc
        have := (Fl.lt_iff hu hw).mpr (not_le.mp hc)
        rw [h.2] at this; cases this
  intro fuel
  induction fuel with
  | zero =>
    intro w hw
    rw [reflect]
    split
    · exact Or.inl rfl
    · rename_i h
      exact Or.inr ⟨w, rfl, done w h, hw⟩
  | succ fuel ih =>
    intro w hw
    rw [reflect]
    split
    · exact ih _ (hG w hw)
    · rename_i h
      exact Or.inr ⟨w, rfl, done w h, hw⟩

/-- If the reflection ends, every component is inside the bounds or NaN. -/
theorem reflection_ends {op : Fl.Ops K} {lb ub x : List (Fl K)} (hlen : lb.length = ub.length) (hx : x.length = lb.length)
    (hnan : ∀ (i : Nat) (l u : Fl K), lb[i]? = some l → ub[i]? = some u → l ≠ .nan ∧ u ≠ .nan) (G : Fl K → Prop)
    (hG : ∀ (i : Nat) (l u w : Fl K), lb[i]? = some l → ub[i]? = some u → G w → G (reflectStep op l u w)) (hgx : ∀ w ∈ x, G w) (fuel : Nat) :
    EndsWith (forceBoundsReflection op fuel x lb ub) (fun y => y.length = lb.length ∧ (∀ w ∈ y, G w) ∧
      ∀ (i : Nat) (l u w : Fl K), lb[i]? = some l → ub[i]? = some u → y[i]? = some w → NanOrIn l u w) := by
  unfold forceBoundsReflection
  have key := ends_range (f := forceReflectionAt op fuel lb ub) (fun t (y : List (Fl K)) => y.length = lb.length ∧ (∀ w ∈ y, G w) ∧
      ∀ (i : Nat) (l u w : Fl K), i < t → lb[i]? = some l → ub[i]? = some u → y[i]? = some w → NanOrIn l u w) x.length x
      ⟨hx, hgx, fun _ _ _ _ h => absurd h (by omega)⟩ ?_
  · rcases key with h | ⟨y, h, h1, h2, h3⟩
    · exact Or.inl h
    · refine Or.inr ⟨y, h, h1, h2, fun i l u w hl hu hw => h3 i l u w ?_ hl hu hw⟩
      have := (List.getElem?_eq_some_iff.mp hw).1
      omega
  · rintro i y hi ⟨h1, h2, h3⟩
    have i1 : i < lb.length := by omega
    have i2 : i < ub.length := by omega
    have i3 : i < y.length := by omega
    unfold forceReflectionAt
    rw [Outcome.get_of_lt i1, Outcome.get_of_lt i2, Outcome.get_of_lt i3]
    have hn := hnan i _ _ (List.getElem?_eq_getElem i1) (List.getElem?_eq_getElem i2)
    have := reflect_ends (op := op) hn.1 hn.2 G (fun w hw => hG i _ _ w (List.getElem?_eq_getElem i1) (List.getElem?_eq_getElem i2) hw) fuel y[i]
      (h2 _ (List.getElem_mem i3))
    simp only [Outcome.bind_ok]
    rcases this with h | ⟨w, h, hw1, hw2⟩
    · left; rw [h]; rfl
    · right
      rw [h]
      refine ⟨y.set i w, by simp [Outcome.set, i3], by simpa using h1, ?_, ?_⟩
      · intro a ha
        rcases List.mem_or_eq_of_mem_set ha with ha | rfl
        · exact h2 a ha
        · exact hw2
      · intro j l u a hj hl hu ha
        by_cases hji : j = i
        · subst hji
          rw [List.getElem?_set_self i3] at ha
          cases ha
          rw [List.getElem?_eq_getElem i1] at hl; rw [List.getElem?_eq_getElem i2] at hu
          cases hl; cases hu
          exact hw1
        · rw [List.getElem?_set_ne (Ne.symm hji)] at ha
          exact h3 j l u a (by omega) hl hu ha

/-! ## New points -/

variable [IsStrictOrderedRing K]

/-- What keeps the numbers finite. -/
structure IhsNum (v : IhsEnv K σ) (P : AProb K) (A : Ihs K) : Prop where
  noOver : NoOverflow v.op
  one : ∃ a : K, v.op.one = .fin a
  finL : ∀ l ∈ P.lb, l.isFinite = true
  finU : ∀ u ∈ P.ub, u.isFinite = true
  bw : ∀ gen, 1 ≤ gen → gen ≤ A.gens → (ihsBw v A gen).isFinite = true

variable [FloorRing K]

theorem wp_uniformIntAny {g : Gen K σ} {rep : K → Prop} (hg : g.Lawful rep) (lo hi : Fl K) {Q : Fl K → σ → Prop}
    {E : Exn → σ → Prop} {s : σ} (hq : ∀ w s', Q (.fin w) s') (he : ∀ s', E .invalidArgument s') :
    wp (uniformIntegralFromRange g lo hi) Q E s := by
  unfold uniformIntegralFromRange uniformIntegral intChecks
  rw [wp_bind]
  by_cases h1 : (!lo.isFinite || !hi.isFinite) = true
  · rw [if_pos (by simpa using h1), wp_lift_throws]
    exact he _
  · rw [if_neg (by simpa using h1)]
    simp only [Bool.or_eq_true, Bool.not_eq_true', not_or, Bool.not_eq_false] at h1
    obtain ⟨a, rfl⟩ := fin_of_finite h1.1
    obtain ⟨b, rfl⟩ := fin_of_finite h1.2
    by_cases h2 : Fl.gt (Fl.fin a) (.fin b) = true
    · rw [if_pos (by simpa using h2), wp_lift_throws]
      exact he _
    · rw [if_neg (by simpa using h2)]
      have hab : a ≤ b := by simpa [Fl.gt, Fl.lt] using h2
      split
      · rw [wp_lift_throws]; exact he _
      · rename_i h3
        rw [wp_lift_ok, wp_bind]
        simp only [Bool.true_and, Bool.or_eq_true, Bool.not_eq_true', not_or, Bool.not_eq_false, trunc, Fl.eq, decide_eq_true_eq] at h3
        obtain ⟨z1, hz1⟩ := (truncK_eq_iff a).mp h3.1
        obtain ⟨z2, hz2⟩ := (truncK_eq_iff b).mp h3.2
        subst hz1 hz2
        rw [toLongLongs_int]
        split
        · rw [wp_lift_ok, wp_bind]
          refine Gen.wp_drawInt hg (by exact_mod_cast hab) ?_
          intro z s' _ _
          exact hq _ _
        · rw [wp_lift_throws]; exact he _

omit [IsStrictOrderedRing K] [FloorRing K] in
theorem wp_ihsMemory {v : IhsEnv K σ} {rep : K → Prop} (hg : v.g.Lawful rep) {xs : List (List (Fl K))} (hne : xs ≠ []) {n : Nat}
    (hx : ∀ x ∈ xs, x.length = n) {i : Nat} (hi : i < n) {Q : Fl K → σ → Prop} {E : Exn → σ → Prop} {s : σ}
    (hq : ∀ x ∈ xs, ∀ w ∈ x, ∀ s', Q w s') : wp (ihsMemory v xs i) Q E s := by
  have h0 : 0 < xs.length := List.length_pos_iff.mpr hne
  unfold ihsMemory
  rw [wp_bind]
  refine Gen.wp_drawNat hg (by omega) ?_
  intro k s' _ hk
  have hk' : k < xs.length := by omega
  rw [wp_bind, wp_lift_get hk', wp_lift_get (by rw [hx _ (List.getElem_mem hk')]; exact hi)]
  exact hq _ (List.getElem_mem hk') _ (List.getElem_mem _) _

/-- every component of the new point, before the reflection, is a finite number if `Num` -/
theorem wp_ihsValue {v : IhsEnv K σ} {rep : K → Prop} (hg : v.g.Lawful rep) {P : AProb K} {A : Ihs K} {Num : Prop}
    (hN : Num → IhsNum v P A) {xs : List (List (Fl K))} (hne : xs ≠ []) {n : Nat}
    (hx : ∀ x ∈ xs, x.length = n) (hfin : ∀ x ∈ xs, ∀ w ∈ x, Num → w.isFinite = true) {gen i : Nat} (hg1 : 1 ≤ gen) (hg2 : gen ≤ A.gens)
    (hi : i < n) {l u : Fl K} (hl : Num → l.isFinite = true) (hu : Num → u.isFinite = true) {E : Exn → σ → Prop}
    (he : ∀ s', E .invalidArgument s') (s : σ) :
    wp (ihsValue v P A xs gen i l u) (fun w _ => Num → w.isFinite = true) E s := by
  have hadd : ∀ a b : Fl K, Num → a.isFinite = true → b.isFinite = true → (v.op.add a b).isFinite = true := by
    intro a b n ha hb
    obtain ⟨a, rfl⟩ := fin_of_finite ha
    obtain ⟨b, rfl⟩ := fin_of_finite hb
    obtain ⟨c, hc⟩ := (hN n).noOver.add a b
    rw [hc]; rfl
  have hsub : ∀ a b : Fl K, Num → a.isFinite = true → b.isFinite = true → (v.op.sub a b).isFinite = true := by
    intro a b n ha hb
    obtain ⟨a, rfl⟩ := fin_of_finite ha
    obtain ⟨b, rfl⟩ := fin_of_finite hb
    obtain ⟨c, hc⟩ := (hN n).noOver.sub a b
    rw [hc]; rfl
  have hmul : ∀ a b : Fl K, Num → a.isFinite = true → b.isFinite = true → (v.op.mul a b).isFinite = true := by
    intro a b n ha hb
    obtain ⟨a, rfl⟩ := fin_of_finite ha
    obtain ⟨b, rfl⟩ := fin_of_finite hb
    obtain ⟨c, hc⟩ := (hN n).noOver.mul a b
    rw [hc]; rfl
  unfold ihsValue
  rw [wp_ite]
  constructor
  · intro _
    unfold ihsReal
    rw [wp_bind]
    refine Gen.wp_draw01 hg ?_
    intro r s _ _
    rw [wp_ite]
    constructor
    · intro _
      rw [wp_bind]
      refine wp_ihsMemory hg hne hx hi ?_
      intro x hxm w hw s
      rw [wp_bind]
      refine Gen.wp_draw01 hg ?_
      intro r s _ _
      rw [wp_ite]
      constructor
      · intro _
        rw [wp_bind]
        refine Gen.wp_draw01 hg ?_
        intro r s _ _ n
        exact hadd _ _ n (hfin x hxm w hw n) (hmul _ _ n (hmul _ _ n (hmul _ _ n rfl (hsub _ _ n rfl rfl)) ((hN n).bw gen hg1 hg2))
          (hsub _ _ n (hu n) (hl n)))
      · intro _ n
        exact hfin x hxm w hw n
    · intro _
      exact wp_uniformAny hg l u (fun a b w s' _ _ _ _ _ => rfl) (fun _ => he _)
  · intro _
    unfold ihsInt
    rw [wp_bind]
    refine Gen.wp_draw01 hg ?_
    intro r s _ _
    rw [wp_ite]
    constructor
    · intro _
      rw [wp_bind]
      refine wp_ihsMemory hg hne hx hi ?_
      intro x hxm w hw s
      rw [wp_bind]
      refine Gen.wp_draw01 hg ?_
      intro r s _ _
      rw [wp_ite]
      constructor
      · intro _
        rw [wp_bind]
        refine wp_uniformIntAny hg _ _ (fun d s' n => ?_) he
        exact hadd _ _ n (hfin x hxm w hw n) rfl
      · intro _ n
        exact hfin x hxm w hw n
    · intro _
      exact wp_uniformIntAny hg _ _ (fun d s' n => rfl) he

theorem wp_ihsPoint {v : IhsEnv K σ} {rep : K → Prop} (hg : v.g.Lawful rep) {P : AProb K} {A : Ihs K} {Num : Prop}
    (hN : Num → IhsNum v P A) (hdim : P.info.nx = P.lb.length) (hlen : P.lb.length = P.ub.length)
    {xs : List (List (Fl K))} (hne : xs ≠ []) (hx : ∀ x ∈ xs, x.length = P.info.nx) (hfin : ∀ x ∈ xs, ∀ w ∈ x, Num → w.isFinite = true) {gen : Nat}
    (hg1 : 1 ≤ gen) (hg2 : gen ≤ A.gens) {x : List (Fl K)} (hxl : x.length = P.info.nx) (hxf : ∀ w ∈ x, Num → w.isFinite = true)
    {E : Exn → σ → Prop} (he : ∀ s', E .invalidArgument s') (s : σ) :
    wp ((List.range P.info.nx).foldlM (ihsGene v P A xs gen) x) (fun y _ => y.length = P.info.nx ∧ ∀ w ∈ y, Num → w.isFinite = true) E s := by
  refine (wp_range (fun _ (y : List (Fl K)) _ => y.length = P.info.nx ∧ ∀ w ∈ y, Num → w.isFinite = true) _ _ s ⟨hxl, hxf⟩ ?_)
  rintro i y s hi ⟨h1, h2⟩
  have i1 : i < P.lb.length := by omega
  have i2 : i < P.ub.length := by omega
  unfold ihsGene
  rw [wp_bind, wp_lift_get i1, wp_bind, wp_lift_get i2, wp_bind]
  refine (wp_ihsValue hg hN hne hx hfin hg1 hg2 hi (fun n => (hN n).finL _ (List.getElem_mem i1)) (fun n => (hN n).finU _ (List.getElem_mem i2)) he s).mono ?_
    (fun _ _ h => h)
  intro w s hw
  rw [wp_lift_set (by omega)]
  refine ⟨by simpa using h1, fun a ha => ?_⟩
  rcases List.mem_or_eq_of_mem_set ha with ha | rfl
  · exact h2 a ha
  · exact hw

/-! ## The first front is kept in place -/

omit [IsStrictOrderedRing K] [FloorRing K] in
theorem bind_ok_inv {α β : Type} {o : Outcome α} {f : α → Outcome β} {b : β} (h : (o >>= f) = .ok b) : ∃ a, o = .ok a ∧ f a = .ok b := by
  cases o with
  | ok a => exact ⟨a, rfl, h⟩
  | throws e => cases h
  | ub => cases h
  | nofuel => cases h

theorem peel_head (dl : List (List Nat)) : ∀ (fuel k : Nat) (cur cc rank : List Nat) (fronts : List (List Nat)) (r : List (List Nat) × List Nat),
    fndsPeel dl fuel k cur cc rank fronts = .ok r → fronts <+: r.1 := by
  intro fuel
  induction fuel with
  | zero => intro k cur cc rank fronts r h; cases h
  | succ fuel ih =>
    intro k cur cc rank fronts r h
    rw [fndsPeel] at h
    split at h
    · cases h; exact List.prefix_rfl
    · obtain ⟨⟨nx, cc', rank'⟩, -, h⟩ := bind_ok_inv h
      have := ih _ _ _ _ _ _ h
      split at this
      · exact this
      · exact (List.prefix_append _ _).trans this

theorem first_sorted {n : Nat} {dc rank : List Nat} {r : List Nat × List Nat} (h : fndsFirst n dc rank = .ok r) : r.1.Pairwise (· < ·) ∧ ∀ a ∈ r.1, a < n := by
  induction n generalizing r with
  | zero => cases h; exact ⟨.nil, by simp⟩
  | succ n ih =>
    unfold fndsFirst at h ih
    rw [List.range_succ, List.foldlM_append] at h
    obtain ⟨⟨f, rk⟩, h1, h2⟩ := bind_ok_inv h
    obtain ⟨i1, i2⟩ := ih h1
    rw [List.foldlM_cons] at h2
    obtain ⟨⟨f', rk'⟩, h2', h3⟩ := bind_ok_inv h2
    clear h2
    cases h3
    obtain ⟨c, -, h2⟩ := bind_ok_inv h2'
    split at h2
    · obtain ⟨r', -, h2⟩ := bind_ok_inv h2
      cases h2
      refine ⟨List.pairwise_append.mpr ⟨i1, by simp, ?_⟩, ?_⟩
      · intro a ha b hb
        rw [List.mem_singleton] at hb
        subst hb
        exact i2 a ha
      · intro a ha
        rcases List.mem_append.mp ha with ha | ha
        · exact Nat.lt_succ_of_lt (i2 a ha)
        · rw [List.mem_singleton] at ha; omega
    · cases h2
      exact ⟨i1, fun a ha => Nat.lt_succ_of_lt (i2 a ha)⟩

omit [Field K] [IsStrictOrderedRing K] [FloorRing K] in
/-- the first front is in ascending order -/
theorem fnds_head {pts : List (List (Fl K))} {t : Fnds} (h : fnds pts = .ok t) :
    ∃ f0 rest, t.fronts = f0 :: rest ∧ f0.Pairwise (· < ·) := by
  unfold fnds at h
  split at h
  · cases h
  · obtain ⟨⟨dl, dc⟩, -, h⟩ := bind_ok_inv h
    obtain ⟨⟨f0, rank⟩, h1, h⟩ := bind_ok_inv h
    obtain ⟨⟨fronts, rank'⟩, h2, h⟩ := bind_ok_inv h
    cases h
    obtain ⟨rest, hr⟩ := peel_head _ _ _ _ _ _ _ _ h2
    exact ⟨f0, rest, hr.symm, (first_sorted h1).1⟩

theorem prefix_fold {α : Type} {g : Nat → Outcome α} (l : List Nat) : ∀ (r0 r : List α),
    l.foldlM (init := r0) (fun r i => do let x ← g i; pure (r ++ [x])) = Outcome.ok r → r0 <+: r := by
  induction l with
  | nil => intro r0 r h; cases h; exact List.prefix_rfl
  | cons a l ih =>
    intro r0 r h
    rw [List.foldlM_cons] at h
    obtain ⟨r1, h1, h2⟩ := bind_ok_inv h
    obtain ⟨x, -, h1⟩ := bind_ok_inv h1
    cases h1
    exact (List.prefix_append _ _).trans (ih _ _ h2)

omit [Field K] [IsStrictOrderedRing K] [FloorRing K] in
/-- if the first front is not larger than what is asked for, the selection begins with it -/
theorem select_prefix {op : Fl.Ops K} {srt : (Nat → Nat → Bool) → List Nat → List Nat} {pts : List (List (Fl K))} {n : Nat} {r : List Nat}
    {t : Fnds} (hsel : selectBestNMo op srt pts n = .ok r) (hn0 : 0 < n) (hn : n < pts.length) (ht : fnds pts = .ok t)
    (htot : t.fronts.flatten.length = pts.length) {f0 : List Nat} {rest : List (List Nat)} (hf : t.fronts = f0 :: rest) (hle : f0.length ≤ n) :
    f0 <+: r := by
  unfold selectBestNMo at hsel
  rw [if_neg (by omega), if_neg (by omega), if_neg (by omega), if_neg (by omega), ht] at hsel
  simp only [Outcome.bind_ok] at hsel
  obtain ⟨pre, suf, hs, hc⟩ := takeFronts_spec n t.fronts [] (by simpa using hn0) (by rw [htot]; simpa using hn)
  simp only [List.nil_append] at hc
  have hpre : (∃ f rest', suf = f :: rest' ∧ n < pre.flatten.length + f.length) ∨ pre.flatten.length = n → f0 <+: pre.flatten := by
    intro hh
    cases pre with
    | nil =>
      exfalso
      rcases hh with ⟨f, rest', h1, h2⟩ | h
      · rw [List.nil_append, hf, h1] at hs
        cases hs
        simp at h2; omega
      · simp at h; omega
    | cons p pre =>
      rw [hf] at hs
      cases hs
      rw [List.flatten_cons]
      exact List.prefix_append _ _
  rcases hc with ⟨h1, h2⟩ | ⟨f, rest', h1, h2, h3, h4⟩
  · rw [h1] at hsel
    cases hsel
    exact hpre (Or.inr h2)
  · rw [h2] at hsel
    refine (hpre (Or.inl ⟨f, rest', h1, h4⟩)).trans ?_
    simp only at hsel
    obtain ⟨front, -, hsel⟩ := bind_ok_inv hsel
    obtain ⟨fits, -, hsel⟩ := bind_ok_inv hsel
    obtain ⟨cds, -, hsel⟩ := bind_ok_inv hsel
    obtain ⟨idxs, -, hsel⟩ := bind_ok_inv hsel
    exact prefix_fold (g := fun i => do let k ← Outcome.get idxs i; Outcome.get front k) _ _ _ (by
      rw [← hsel]
      congr 1
      funext r i
      cases Outcome.get idxs i <;> rfl)

end Verif.Props
