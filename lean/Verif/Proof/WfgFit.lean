import Verif.Proof.WfgVal

/-!
# The fitness of the nine WFG problems as functions of the normalised decision vector
-/

set_option autoImplicit false

namespace Verif.Wfg

open Verif Verif.Spec Verif.Analytic Verif.Dtlz Finset

/-- the normalised decision vector -/
noncomputable def zOf (x : List ℝ) (i : Nat) : ℝ := at0 x i / (2 * ((i : ℝ) + 1))

/-- the first `n` values are between 0 and 1 -/
def Unit' (n : Nat) (z : Nat → ℝ) : Prop := ∀ i, i < n → In01 (z i)

theorem normalise_tab {p : Wfg} {x : List ℝ} (hx : x.length = p.dim) : normalise p x = .ok (tab p.dim (zOf x)) := by
  refine fill_all fun i hi => ?_
  have hb : (bounds p).2 = tab p.dim twice := rfl
  rw [normAt, get_at0 (by omega), Outcome.bind_ok, hb, get_tab hi, Outcome.bind_ok]; rfl

/-- the sum of the first `i` values of the first transition vector of wfg8 -/
noncomputable def sum8 (k : Nat) (z : Nat → ℝ) : Nat → ℝ
  | 0 => 0
  | i + 1 => sum8 k z i + if i < k then z i else Huband.bias (sum8 k z i / i) (z i)

/-- the first transition vector of wfg8, as computed -/
noncomputable def first8 (k : Nat) (z : Nat → ℝ) (i : Nat) : ℝ := if i < k then z i else Huband.bias (sum8 k z i / i) (z i)

theorem sum8_eq (k : Nat) (z : Nat → ℝ) (i : Nat) : sum8 k z i = ∑ j ∈ range i, first8 k z j := by
  induction i with
  | zero => rfl
  | succ i ih => rw [sum_range_succ, ← ih]; rfl

theorem first8_mean (k : Nat) (z : Nat → ℝ) (i : Nat) :
    first8 k z i = if i < k then z i else Huband.bias (Huband.mean (first8 k z) 0 i) (z i) := by
  rw [first8, sum8_eq]
  simp only [Huband.mean, zero_add]

theorem first8_range {n k : Nat} (hk : 1 ≤ k) {z : Nat → ℝ} (hz : Unit' n z) : Unit' n (first8 k z) := by
  intro i
  induction i using Nat.strong_induction_on with
  | _ i ih =>
    intro hi
    rw [first8_mean]
    split_ifs with h
    · exact hz i hi
    · refine bias_range (mean_range (by omega) fun j hj => ?_) (hz i hi)
      rw [zero_add]; exact ih j hj (by omega)

/-- the transition vector before the reduction, as computed -/
noncomputable def cTrans (id n k : Nat) (z : Nat → ℝ) (i : Nat) : ℝ :=
  if id = 8 then (if i < k then z i else Huband.sLinear 0.35 (first8 k z i)) else Huband.transition id n k z i

/-- the reduction, as computed -/
noncomputable def cRed (id k : Nat) (y : Nat → ℝ) (lo len : Nat) : ℝ :=
  if id = 6 ∨ id = 9 then cNonsep len y lo else Huband.reduction id k y lo len

/-- the final transition vector, as computed -/
noncomputable def cFinal (id n M k : Nat) (z : Nat → ℝ) (m : Nat) : ℝ :=
  if m < M - 1 then cRed id k (cTrans id n k z) (m * (k / (M - 1))) (k / (M - 1))
  else cRed id k (cTrans id n k z) k (n - k)

theorem objOf_congr {id M : Nat} (hM : 2 ≤ M) {T U : Nat → ℝ} (h : ∀ m, m < M → T m = U m) {m : Nat} (hm : m < M) :
    Huband.objOf id M T m = Huband.objOf id M U m := by
  have hu : ∀ m, m < M → Huband.under id M T m = Huband.under id M U m := by
    intro m hm
    unfold Huband.under
    rw [h m hm, h (M - 1) (by omega)]
  have hprod : ∀ (c s : ℝ → ℝ) (m : Nat), m < M → Huband.prodShape M (fun j => c (Huband.under id M T j)) (fun j => s (Huband.under id M T j)) m =
      Huband.prodShape M (fun j => c (Huband.under id M U j)) (fun j => s (Huband.under id M U j)) m := by
    intro c s m hm
    unfold Huband.prodShape
    congr 1
    · exact prod_congr rfl fun j hj => by dsimp only; rw [hu j (by have := mem_range.mp hj; omega)]
    · split_ifs
      · rfl
      · dsimp only; rw [hu _ (by omega)]
  unfold Huband.objOf
  rw [h (M - 1) (by omega)]
  congr 2
  unfold Huband.front
  split
  · split_ifs
    · exact hprod (fun a => 1 - Real.cos (a * (Real.pi / 2))) (fun a => 1 - Real.sin (a * (Real.pi / 2))) m hm
    · rw [hu 0 (by omega)]
  · split_ifs
    · exact hprod (fun a => 1 - Real.cos (a * (Real.pi / 2))) (fun a => 1 - Real.sin (a * (Real.pi / 2))) m hm
    · rw [hu 0 (by omega)]
  · exact hprod (fun a => a) (fun a => 1 - a) m hm
  · exact hprod (fun a => Real.sin (a * (Real.pi / 2))) (fun a => Real.cos (a * (Real.pi / 2))) m hm

theorem final_of {p : Wfg} (hp : Made p) {y : Nat → ℝ} {T : Nat → ℝ} {z : Nat → ℝ}
    (hy : cTrans p.id p.dim p.k z = y)
    (hT : ∀ i, i < p.fdim - 1 → T i = cRed p.id p.k y (i * (p.k / (p.fdim - 1))) (p.k / (p.fdim - 1)))
    (hD : T (p.fdim - 1) = cRed p.id p.k y p.k (p.dim - p.k)) :
    tab p.fdim (Huband.objOf p.id p.fdim T) = tab p.fdim (Huband.objOf p.id p.fdim (cFinal p.id p.dim p.fdim p.k z)) := by
  have h2 := hp.two
  refine tab_congr fun m hm => objOf_congr h2 (fun i hi => ?_) hm
  unfold cFinal
  rw [hy]
  by_cases h : i < p.fdim - 1
  · rw [if_pos h, hT i h]
  · rw [if_neg h, show i = p.fdim - 1 by omega, hD]

theorem linearTail_tab {p : Wfg} {z : Nat → ℝ} (hz : Unit' p.dim z) :
    linearTail p (tab p.dim z) = .ok (tab p.dim (fun i => if i < p.k then z i else Huband.sLinear 0.35 (z i))) := by
  refine fill_all fun i hi => ?_
  rw [distAt, get_tab hi, Outcome.bind_ok]
  split_ifs
  · rfl
  · rw [sLinear_eq (hz i hi)]

theorem tail_unit {n k : Nat} {z : Nat → ℝ} {f : ℝ → ℝ} (hz : Unit' n z) (hf : ∀ a, In01 a → In01 (f a)) :
    Unit' n (fun i => if i < k then z i else f (z i)) := by
  intro i hi
  show In01 (if i < k then z i else f (z i))
  split_ifs
  · exact hz i hi
  · exact hf _ (hz i hi)

theorem step_point {N : Nat} {F : List ℝ → Nat → Outcome ℝ} {g v : Nat → ℝ}
    (h : ∀ (y : Nat → ℝ) (i : Nat), i < N → y i = v i → F (tab N y) i = .ok (g i)) : stepLoop 0 N F (tab N v) = .ok (tab N g) := by
  rw [step_tab (g := g) (by omega) (fun i _ hi => h _ i (by omega) (if_neg (by omega)))]
  congr 1
  exact tab_congr fun i hi => if_pos ⟨Nat.zero_le i, by omega⟩

/-! ## wfg1 -/

theorem vec1_tab {p : Wfg} {z : Nat → ℝ} (hz : Unit' p.dim z) :
    vec1 p (tab p.dim z) = .ok (tab p.dim (Huband.transition 1 p.dim p.k z)) := by
  unfold vec1
  rw [linearTail_tab hz, Outcome.bind_ok,
    step_point (g := fun i => if i < p.k then z i else Huband.bFlat 0.8 0.75 0.85 (Huband.sLinear 0.35 (z i))) (fun y i hi e => ?_),
    Outcome.bind_ok, step_point (g := Huband.transition 1 p.dim p.k z) (fun y i hi e => ?_)]
  · rw [applyAt, get_tab hi, Outcome.bind_ok, e]; rfl
  · rw [distAt, get_tab hi, Outcome.bind_ok, e]
    by_cases h : i < p.k
    · rw [if_pos h, if_pos h, if_pos h]
    · rw [if_neg h, if_neg h, if_neg h, bFlat_eq (hLinear_range (hz i hi))]

theorem trans_ne8 {id n k : Nat} (h : id ≠ 8) (z : Nat → ℝ) : cTrans id n k z = Huband.transition id n k z := by
  funext i; rw [cTrans, if_neg h]

theorem red_ne {id k : Nat} (h : id ≠ 6) (h' : id ≠ 9) (y : Nat → ℝ) (lo len : Nat) : cRed id k y lo len = Huband.reduction id k y lo len := by
  rw [cRed, if_neg (by omega)]

theorem under_ne3 {id M : Nat} (h : id ≠ 3) (T : Nat → ℝ) : Huband.under id M T = fun m =>
    if m < M - 1 then max (T (M - 1)) 1 * (T m - 1 / 2) + 1 / 2 else T (M - 1) := by
  funext m; unfold Huband.under
  rw [show Huband.degen id m = 1 from if_neg (fun e => h e.1)]

theorem fit1_tab {p : Wfg} (hp : Made p) (h : p.id = 1) {x : List ℝ} (hx : x.length = p.dim) (hz : Unit' p.dim (zOf x)) :
    fit1 p x = .ok (tab p.fdim (Huband.objOf p.id p.fdim (cFinal p.id p.dim p.fdim p.k (zOf x)))) := by
  have hk := hp.lt
  have h2 := hp.two
  have hpos := hp.pos
  unfold fit1
  rw [normalise_tab hx, Outcome.bind_ok, vec1_tab hz, Outcome.bind_ok]
  obtain ⟨T, hT, hTi, hTd⟩ := reduce_tab hp (le_refl p.fdim) (pos := blockWeighted (tab p.dim (Huband.transition 1 p.dim p.k (zOf x))))
    (dist := blockWeighted (tab p.dim (Huband.transition 1 p.dim p.k (zOf x))) p.k p.dim)
    (fun i hi => weighted_tab (by have := hp.hi hi; omega))
    (by have := weighted_tab (N := p.dim) (y := Huband.transition 1 p.dim p.k (zOf x)) (lo := p.k) (len := p.dim - p.k) (by omega)
        rwa [show p.k + (p.dim - p.k) = p.dim by omega] at this)
  rw [hT, Outcome.bind_ok, params_tab hp le_rfl, Outcome.bind_ok, shapesLast_tab hp, Outcome.bind_ok, objectives_tab hp]
  rw [← final_of hp (y := Huband.transition 1 p.dim p.k (zOf x)) (T := T) (by rw [trans_ne8 (by omega), h])
    (fun i hi => by rw [hTi i hi, red_ne (by omega) (by omega), h]; rfl) (by rw [hTd, red_ne (by omega) (by omega), h]; rfl)]
  congr 1
  refine tab_congr fun m hm => ?_
  unfold Huband.objOf
  rw [under_ne3 (by omega), h]
  simp only [Huband.front, mixed_eq, lt_irrefl, if_false]

/-! ## wfg2 and wfg3 -/

/-- the values after the second transformation of wfg2 and wfg3, in the order of the code -/
noncomputable def paired (k : Nat) (y : Nat → ℝ) (i : Nat) : ℝ := if i < k then y i else Huband.nonsep 2 y (k + 2 * (i - k)) 2

theorem vec23_tab {p : Wfg} (hp : Made p) {z : Nat → ℝ} (hz : Unit' p.dim z) :
    ∃ v : Nat → ℝ, vec23 p (tab p.dim z) = .ok (tab p.dim v) ∧ ∀ i, i < p.k + (p.dim - p.k) / 2 →
      v i = paired p.k (fun i => if i < p.k then z i else Huband.sLinear 0.35 (z i)) i := by
  have hk := hp.lt
  generalize hy : (fun i => if i < p.k then z i else Huband.sLinear 0.35 (z i)) = y
  refine ⟨fun i => if 0 ≤ i ∧ i < 0 + (p.k + (p.dim - p.k) / 2) then paired p.k y i else y i, ?_, fun i hi => if_pos (⟨Nat.zero_le i, by simpa using hi⟩ : 0 ≤ i ∧ i < 0 + (p.k + (p.dim - p.k) / 2))⟩
  unfold vec23
  rw [linearTail_tab hz, Outcome.bind_ok, hy, step_tab (g := paired p.k y) (v := y) (by omega) (fun i _ hi => ?_)]
  rw [pairAt, paired]
  by_cases h : i < p.k
  · rw [if_pos (by omega), if_pos h, get_tab (by omega), if_neg (by omega)]
  · rw [if_neg (by omega), if_neg h, show p.k + 2 * (i + 1 - p.k) - 2 = p.k + 2 * (i - p.k) by omega,
      show p.k + 2 * (i + 1 - p.k) = p.k + 2 * (i - p.k) + 2 by omega, nonsep_tab (by omega) (by omega),
      cNonsep_eq (Or.inr rfl) (by omega)]
    congr 1
    unfold Huband.nonsep
    have e : ∀ j, j < 2 → (if 0 ≤ p.k + 2 * (i - p.k) + j ∧ p.k + 2 * (i - p.k) + j < i then paired p.k y (p.k + 2 * (i - p.k) + j)
        else y (p.k + 2 * (i - p.k) + j)) = y (p.k + 2 * (i - p.k) + j) := fun j hj => if_neg (by omega)
    have e' : ∀ j i', j < 2 → (if 0 ≤ p.k + 2 * (i - p.k) + (j + 1 + i') % 2 ∧ p.k + 2 * (i - p.k) + (j + 1 + i') % 2 < i then
        paired p.k y (p.k + 2 * (i - p.k) + (j + 1 + i') % 2) else y (p.k + 2 * (i - p.k) + (j + 1 + i') % 2)) =
        y (p.k + 2 * (i - p.k) + (j + 1 + i') % 2) := fun j i' hj => if_neg (by omega)
    congr 1
    refine sum_congr rfl fun j hj => ?_
    have hj := mem_range.mp hj
    dsimp only
    rw [e j hj]
    congr 1
    refine sum_congr rfl fun i' _ => ?_
    rw [e' j i' hj]

theorem reduce23_tab {p : Wfg} (hp : Made p) (h : p.id = 2 ∨ p.id = 3) {z v : Nat → ℝ}
    (hv : ∀ i, i < p.k + (p.dim - p.k) / 2 → v i = paired p.k (fun i => if i < p.k then z i else Huband.sLinear 0.35 (z i)) i) :
    ∃ T : Nat → ℝ, reduce23 p (tab p.dim v) = .ok (tab p.fdim T) ∧
      tab p.fdim (Huband.objOf p.id p.fdim T) = tab p.fdim (Huband.objOf p.id p.fdim (cFinal p.id p.dim p.fdim p.k z)) := by
  have hk := hp.lt
  have h2 := hp.two
  have hev := hp.even h
  obtain ⟨T, hT, hTi, hTd⟩ := reduce_tab hp (le_refl p.fdim) (pos := blockMean (tab p.dim v))
    (dist := blockMean (tab p.dim v) p.k (p.k + (p.dim - p.k) / 2))
    (fun i hi => mean_tab (by have := hp.hi hi; omega)) (mean_tab (by omega))
  refine ⟨T, hT, final_of hp (y := fun i => if i < p.k then z i else Huband.sLinear 0.35 (z i)) ?_ ?_ ?_⟩
  · rw [trans_ne8 (by omega)]
    funext i
    rcases h with h | h <;> rw [h] <;> rfl
  · intro i hi
    have hh := hp.hi hi
    have hq := hp.q_pos
    have e : Huband.reduction p.id p.k (fun i => if i < p.k then z i else Huband.sLinear 0.35 (z i)) (i * (p.k / (p.fdim - 1)))
        (p.k / (p.fdim - 1)) = Huband.mean (fun i => if i < p.k then z i else Huband.sLinear 0.35 (z i)) (i * (p.k / (p.fdim - 1)))
        (p.k / (p.fdim - 1)) := by
      rcases h with h | h <;> rw [h] <;> exact if_pos (by omega)
    rw [hTi i hi, red_ne (by omega) (by omega), e]
    unfold Huband.mean
    congr 1
    refine sum_congr rfl fun j hj => ?_
    have hj := mem_range.mp hj
    rw [hv _ (by omega), paired, if_pos (by omega)]
  · have e : Huband.reduction p.id p.k (fun i => if i < p.k then z i else Huband.sLinear 0.35 (z i)) p.k (p.dim - p.k) =
        Huband.mean (fun j => Huband.nonsep 2 (fun i => if i < p.k then z i else Huband.sLinear 0.35 (z i)) (p.k + 2 * (j - p.k)) 2) p.k
          ((p.dim - p.k) / 2) := by
      rcases h with h | h <;> rw [h] <;> exact if_neg (by omega)
    rw [hTd, red_ne (by omega) (by omega), e]
    unfold Huband.mean
    congr 1
    refine sum_congr rfl fun j hj => ?_
    have hj := mem_range.mp hj
    rw [hv _ (by omega), paired, if_neg (by omega)]

theorem fit2_tab {p : Wfg} (hp : Made p) (h : p.id = 2) {x : List ℝ} (hx : x.length = p.dim) (hz : Unit' p.dim (zOf x)) :
    fit2 p x = .ok (tab p.fdim (Huband.objOf p.id p.fdim (cFinal p.id p.dim p.fdim p.k (zOf x)))) := by
  unfold fit2
  obtain ⟨v, hv, hvi⟩ := vec23_tab hp hz
  obtain ⟨T, hT, hTf⟩ := reduce23_tab hp (Or.inl h) hvi
  rw [normalise_tab hx, Outcome.bind_ok, hv, Outcome.bind_ok, hT, Outcome.bind_ok, params_tab hp le_rfl, Outcome.bind_ok,
    shapesLast_tab hp, Outcome.bind_ok, objectives_tab hp, ← hTf]
  congr 1
  refine tab_congr fun m hm => ?_
  unfold Huband.objOf
  rw [under_ne3 (by omega), h]
  simp only [Huband.front, disconnected_eq, lt_irrefl, if_false]

theorem fit3_tab {p : Wfg} (hp : Made p) (h : p.id = 3) {x : List ℝ} (hx : x.length = p.dim) (hz : Unit' p.dim (zOf x)) :
    fit3 p x = .ok (tab p.fdim (Huband.objOf p.id p.fdim (cFinal p.id p.dim p.fdim p.k (zOf x)))) := by
  unfold fit3
  obtain ⟨v, hv, hvi⟩ := vec23_tab hp hz
  obtain ⟨T, hT, hTf⟩ := reduce23_tab hp (Or.inr h) hvi
  rw [normalise_tab hx, Outcome.bind_ok, hv, Outcome.bind_ok, hT, Outcome.bind_ok, params_tab hp le_rfl, Outcome.bind_ok,
    shapes_tab (h := Huband.linear p.fdim _) (fun m hm => linear_tab hp hm), Outcome.bind_ok, objectives_tab hp, ← hTf]
  congr 1
  refine tab_congr fun m hm => ?_
  have e : Huband.under p.id p.fdim T = fun m =>
      if m < p.fdim - 1 then max (T (p.fdim - 1)) (deg3 m) * (T m - 1 / 2) + 1 / 2 else T (p.fdim - 1) := by
    funext m
    unfold Huband.under Huband.degen deg3
    by_cases h0 : m = 0
    · rw [if_neg (by omega : ¬ (p.id = 3 ∧ m ≠ 0)), if_pos h0]
    · rw [if_pos (⟨h, h0⟩ : p.id = 3 ∧ m ≠ 0), if_neg h0]
  unfold Huband.objOf
  rw [e, h]
  simp only [Huband.front, lt_irrefl, if_false]

/-! ## wfg4 to wfg9 -/

theorem reduceMean_tab {p : Wfg} (hp : Made p) (h : p.id = 4 ∨ p.id = 5 ∨ p.id = 7 ∨ p.id = 8) {size : Nat} (hs : p.fdim ≤ size)
    {z y : Nat → ℝ} (hy : ∀ i, i < p.dim → y i = cTrans p.id p.dim p.k z i) :
    ∃ T : Nat → ℝ, reduceMean p size (tab p.dim y) = .ok (tab size T) ∧
      tab p.fdim (Huband.objOf p.id p.fdim T) = tab p.fdim (Huband.objOf p.id p.fdim (cFinal p.id p.dim p.fdim p.k z)) := by
  have hk := hp.lt
  rw [tab_congr hy]
  obtain ⟨T, hT, hTi, hTd⟩ := reduce_tab hp hs (pos := blockMean (tab p.dim (cTrans p.id p.dim p.k z)))
    (dist := blockMean (tab p.dim (cTrans p.id p.dim p.k z)) p.k p.dim)
    (fun i hi => mean_tab (by have := hp.hi hi; omega))
    (by have := mean_tab (N := p.dim) (y := cTrans p.id p.dim p.k z) (lo := p.k) (len := p.dim - p.k) (by omega)
        rwa [show p.k + (p.dim - p.k) = p.dim by omega] at this)
  have e : ∀ (y : Nat → ℝ) (lo len : Nat), cRed p.id p.k y lo len = Huband.mean y lo len := by
    intro y lo len
    rw [red_ne (by omega) (by omega)]
    rcases h with h | h | h | h <;> rw [h] <;> rfl
  exact ⟨T, hT, final_of hp rfl (fun i hi => by rw [hTi i hi, e]) (by rw [hTd, e])⟩

theorem reduceNonsep_tab {p : Wfg} (hp : Made p) (h : p.id = 6 ∨ p.id = 9)
    {z y : Nat → ℝ} (hy : ∀ i, i < p.dim → y i = cTrans p.id p.dim p.k z i) :
    ∃ T : Nat → ℝ, reduceNonsep p (tab p.dim y) = .ok (tab p.fdim T) ∧
      tab p.fdim (Huband.objOf p.id p.fdim T) = tab p.fdim (Huband.objOf p.id p.fdim (cFinal p.id p.dim p.fdim p.k z)) := by
  have hk := hp.lt
  rw [tab_congr hy]
  obtain ⟨T, hT, hTi, hTd⟩ := reduce_tab hp (le_refl p.fdim)
    (pos := blockNonsep (tab p.dim (cTrans p.id p.dim p.k z)) (p.k / (p.fdim - 1)))
    (dist := blockNonsep (tab p.dim (cTrans p.id p.dim p.k z)) (p.dim - p.k) p.k p.dim)
    (fun i hi => nonsep_tab hp.q_pos (by have := hp.hi hi; omega))
    (by have := nonsep_tab (N := p.dim) (y := cTrans p.id p.dim p.k z) (lo := p.k) (n := p.dim - p.k) (by omega) (by omega)
        rwa [show p.k + (p.dim - p.k) = p.dim by omega] at this)
  have e : ∀ (y : Nat → ℝ) (lo len : Nat), cRed p.id p.k y lo len = cNonsep len y lo := fun y lo len => if_pos h
  exact ⟨T, hT, final_of hp rfl (fun i hi => by rw [hTi i hi, e]) (by rw [hTd, e])⟩

theorem fit4_tab {p : Wfg} (hp : Made p) (h : p.id = 4) {x : List ℝ} (hx : x.length = p.dim) (hz : Unit' p.dim (zOf x)) :
    fit4 p x = .ok (tab p.fdim (Huband.objOf p.id p.fdim (cFinal p.id p.dim p.fdim p.k (zOf x)))) := by
  unfold fit4
  rw [normalise_tab hx, Outcome.bind_ok, fill_all (g := fun i => Huband.sMulti 30 10 0.35 (zOf x i)) (fun i hi => by
    rw [applyAt, get_tab hi, Outcome.bind_ok, sMulti_eq (hz i hi)]), Outcome.bind_ok]
  obtain ⟨T, hT, hTf⟩ := reduceMean_tab hp (Or.inl h) hp.fdim_le (z := zOf x) (y := fun i => Huband.sMulti 30 10 0.35 (zOf x i))
    (fun i _ => by rw [trans_ne8 (by omega), h]; rfl)
  rw [hT, Outcome.bind_ok, concaveFit_tab hp (by omega) hp.fdim_le, hTf]

theorem fit5_tab {p : Wfg} (hp : Made p) (h : p.id = 5) {x : List ℝ} (hx : x.length = p.dim) (hz : Unit' p.dim (zOf x)) :
    fit5 p x = .ok (tab p.fdim (Huband.objOf p.id p.fdim (cFinal p.id p.dim p.fdim p.k (zOf x)))) := by
  unfold fit5
  rw [normalise_tab hx, Outcome.bind_ok, fill_all (g := fun i => Huband.sDecept 0.35 0.001 0.05 (zOf x i)) (fun i hi => by
    rw [applyAt, get_tab hi, Outcome.bind_ok, sDecept_eq (hz i hi)]), Outcome.bind_ok]
  obtain ⟨T, hT, hTf⟩ := reduceMean_tab hp (Or.inr (Or.inl h)) hp.fdim_le (z := zOf x)
    (y := fun i => Huband.sDecept 0.35 0.001 0.05 (zOf x i)) (fun i _ => by rw [trans_ne8 (by omega), h]; rfl)
  rw [hT, Outcome.bind_ok, concaveFit_tab hp (by omega) hp.fdim_le, hTf]

theorem fit6_tab {p : Wfg} (hp : Made p) (h : p.id = 6) {x : List ℝ} (hx : x.length = p.dim) (hz : Unit' p.dim (zOf x)) :
    fit6 p x = .ok (tab p.fdim (Huband.objOf p.id p.fdim (cFinal p.id p.dim p.fdim p.k (zOf x)))) := by
  unfold fit6
  rw [normalise_tab hx, Outcome.bind_ok, linearTail_tab hz, Outcome.bind_ok]
  obtain ⟨T, hT, hTf⟩ := reduceNonsep_tab hp (Or.inl h) (z := zOf x)
    (y := fun i => if i < p.k then zOf x i else Huband.sLinear 0.35 (zOf x i)) (fun i _ => by rw [trans_ne8 (by omega), h]; rfl)
  rw [hT, Outcome.bind_ok, concaveFit_tab hp (by omega) le_rfl, hTf]

theorem later_tab {n : Nat} {z : Nat → ℝ} (hz : Unit' n z) {i : Nat} (hi : i + 1 < n) :
    laterParam n (tab n z) i = .ok (Huband.bias (Huband.mean z (i + 1) (n - 1 - i)) (z i)) := by
  have h := mean_tab (N := n) (y := z) (lo := i + 1) (len := n - 1 - i) (by omega)
  rw [show i + 1 + (n - 1 - i) = n by omega] at h
  rw [laterParam, h, Outcome.bind_ok, get_tab (by omega), Outcome.bind_ok,
    bParam_eq (mean_range (by omega) fun j hj => hz _ (by omega))]

theorem later_range {n : Nat} {z : Nat → ℝ} (hz : Unit' n z) {i : Nat} (hi : i + 1 < n) :
    In01 (Huband.bias (Huband.mean z (i + 1) (n - 1 - i)) (z i)) :=
  bias_range (mean_range (by omega) fun j hj => hz _ (by omega)) (hz i (by omega))

theorem vec7_tab {p : Wfg} (hp : Made p) (h : p.id = 7) {z : Nat → ℝ} (hz : Unit' p.dim z) :
    vec7 p (tab p.dim z) = .ok (tab p.dim (cTrans p.id p.dim p.k z)) := by
  have hk := hp.lt
  unfold vec7
  rw [rep_tab, fill_tab (g := fun i => Huband.bias (Huband.mean z (i + 1) (p.dim - 1 - i)) (z i)) (by omega)
    (fun i _ hi => later_tab hz (by omega)), Outcome.bind_ok, fill_tab (g := z) (by omega) (fun i _ hi => get_tab (by omega)),
    Outcome.bind_ok]
  refine step_point fun y i hi e => ?_
  rw [trans_ne8 (by omega), h, distAt, get_tab hi, Outcome.bind_ok, e]
  simp only [Huband.transition]
  by_cases hc : i < p.k
  · rw [if_pos hc, if_pos hc, if_neg (by omega), if_pos (by omega)]
  · rw [if_neg hc, if_neg hc, if_pos (by omega), sLinear_eq (hz i hi)]

theorem fit7_tab {p : Wfg} (hp : Made p) (h : p.id = 7) {x : List ℝ} (hx : x.length = p.dim) (hz : Unit' p.dim (zOf x)) :
    fit7 p x = .ok (tab p.fdim (Huband.objOf p.id p.fdim (cFinal p.id p.dim p.fdim p.k (zOf x)))) := by
  unfold fit7
  rw [normalise_tab hx, Outcome.bind_ok, vec7_tab hp h hz, Outcome.bind_ok]
  obtain ⟨T, hT, hTf⟩ := reduceMean_tab hp (Or.inr (Or.inr (Or.inl h))) (le_refl p.fdim) (z := zOf x)
    (y := cTrans p.id p.dim p.k (zOf x)) (fun i _ => rfl)
  rw [hT, Outcome.bind_ok, concaveFit_tab hp (by omega) le_rfl, hTf]

theorem mean_congr {y v : Nat → ℝ} {lo len : Nat} (h : ∀ j, j < len → y (lo + j) = v (lo + j)) :
    Huband.mean y lo len = Huband.mean v lo len := by
  unfold Huband.mean
  rw [sum_congr rfl fun j hj => h j (mem_range.mp hj)]

theorem vec8_tab {p : Wfg} (hp : Made p) (h : p.id = 8) {z : Nat → ℝ} (hz : Unit' p.dim z) :
    vec8 p (tab p.dim z) = .ok (tab p.dim (cTrans p.id p.dim p.k z)) := by
  have hk := hp.lt
  have h1 := hp.pos
  have h8 := first8_range h1 hz
  unfold vec8
  rw [rep_tab, fill_tab (g := z) (by omega) (fun i _ hi => get_tab (by omega)), Outcome.bind_ok]
  rw [step_tab (g := first8 p.k z) (by omega), Outcome.bind_ok]
  · refine step_point fun y i hi e => ?_
    rw [distAt, get_tab hi, Outcome.bind_ok, e, cTrans, if_pos h]
    by_cases hc : i < p.k
    · rw [if_pos hc, if_pos hc, if_neg (by omega), if_pos (by omega)]
    · rw [if_neg hc, if_neg hc, if_pos (by omega), sLinear_eq (h8 i hi)]
  · intro i h1 h2
    have hm := mean_tab (N := p.dim) (y := fun j => if p.k ≤ j ∧ j < i then first8 p.k z j else
      if 0 ≤ j ∧ j < 0 + p.k then z j else 0) (lo := 0) (len := i) (by omega)
    rw [show 0 + i = i from zero_add i] at hm
    rw [earlierParam, hm, Outcome.bind_ok, get_tab (by omega), Outcome.bind_ok, first8_mean p.k z i, if_neg (by omega)]
    have e : Huband.mean (fun j => if p.k ≤ j ∧ j < i then first8 p.k z j else if 0 ≤ j ∧ j < 0 + p.k then z j else 0) 0 i =
        Huband.mean (first8 p.k z) 0 i := by
      refine mean_congr fun j hj => ?_
      rw [zero_add]
      by_cases hc : j < p.k
      · rw [if_neg (by omega), if_pos (by omega), first8, if_pos hc]
      · rw [if_pos (by omega)]
    rw [e, bParam_eq (mean_range (by omega) fun j hj => by rw [zero_add]; exact h8 j (by omega))]

theorem fit8_tab {p : Wfg} (hp : Made p) (h : p.id = 8) {x : List ℝ} (hx : x.length = p.dim) (hz : Unit' p.dim (zOf x)) :
    fit8 p x = .ok (tab p.fdim (Huband.objOf p.id p.fdim (cFinal p.id p.dim p.fdim p.k (zOf x)))) := by
  unfold fit8
  rw [normalise_tab hx, Outcome.bind_ok, vec8_tab hp h hz, Outcome.bind_ok]
  obtain ⟨T, hT, hTf⟩ := reduceMean_tab hp (Or.inr (Or.inr (Or.inr h))) (le_refl p.fdim) (z := zOf x)
    (y := cTrans p.id p.dim p.k (zOf x)) (fun i _ => rfl)
  rw [hT, Outcome.bind_ok, concaveFit_tab hp (by omega) le_rfl, hTf]

theorem vec9_tab {p : Wfg} (hp : Made p) (h : p.id = 9) {z : Nat → ℝ} (hz : Unit' p.dim z) :
    vec9 p (tab p.dim z) = .ok (tab p.dim (cTrans p.id p.dim p.k z)) := by
  have hk := hp.lt
  unfold vec9
  rw [rep_tab, fill_tab (g := fun i => Huband.bias (Huband.mean z (i + 1) (p.dim - 1 - i)) (z i)) (by omega)
    (fun i _ hi => later_tab hz (by omega)), Outcome.bind_ok, get_tab (by omega), Outcome.bind_ok, set_tab (by omega), Outcome.bind_ok]
  refine step_point fun y i hi e => ?_
  rw [trans_ne8 (by omega), h, mixAt, get_tab hi, Outcome.bind_ok, e]
  simp only [Huband.transition]
  by_cases hc : i < p.k
  · rw [if_pos hc, if_pos hc, if_neg (by omega), if_pos (by omega), sDecept_eq (later_range hz (by omega))]
  · rw [if_neg hc, if_neg hc]
    by_cases hl : i < p.dim - 1
    · rw [if_neg (by omega), if_pos (by omega), if_pos hl, sMulti_eq (later_range hz (by omega))]
    · rw [if_pos (by omega), if_neg hl, show p.dim - 1 = i by omega, sMulti_eq (hz i hi)]

theorem fit9_tab {p : Wfg} (hp : Made p) (h : p.id = 9) {x : List ℝ} (hx : x.length = p.dim) (hz : Unit' p.dim (zOf x)) :
    fit9 p x = .ok (tab p.fdim (Huband.objOf p.id p.fdim (cFinal p.id p.dim p.fdim p.k (zOf x)))) := by
  unfold fit9
  rw [normalise_tab hx, Outcome.bind_ok, vec9_tab hp h hz, Outcome.bind_ok]
  obtain ⟨T, hT, hTf⟩ := reduceNonsep_tab hp (Or.inr h) (z := zOf x)
    (y := cTrans p.id p.dim p.k (zOf x)) (fun i _ => rfl)
  rw [hT, Outcome.bind_ok, concaveFit_tab hp (by omega) le_rfl, hTf]

/-- the fitness of every WFG problem for a decision vector in the box -/
theorem fitness_tab {p : Wfg} (hp : Made p) {x : List ℝ} (hx : x.length = p.dim) (hz : Unit' p.dim (zOf x)) :
    fitness p x = .ok (tab p.fdim (Huband.objOf p.id p.fdim (cFinal p.id p.dim p.fdim p.k (zOf x)))) := by
  have h1 := hp.id1
  have h9 := hp.id9
  have hid : p.id = 1 ∨ p.id = 2 ∨ p.id = 3 ∨ p.id = 4 ∨ p.id = 5 ∨ p.id = 6 ∨ p.id = 7 ∨ p.id = 8 ∨ p.id = 9 := by omega
  rcases hid with h | h | h | h | h | h | h | h | h
  · rw [← fit1_tab hp h hx hz]; simp only [fitness, h]
  · rw [← fit2_tab hp h hx hz]; simp only [fitness, h]
  · rw [← fit3_tab hp h hx hz]; simp only [fitness, h]
  · rw [← fit4_tab hp h hx hz]; simp only [fitness, h]
  · rw [← fit5_tab hp h hx hz]; simp only [fitness, h]
  · rw [← fit6_tab hp h hx hz]; simp only [fitness, h]
  · rw [← fit7_tab hp h hx hz]; simp only [fitness, h]
  · rw [← fit8_tab hp h hx hz]; simp only [fitness, h]
  · rw [← fit9_tab hp h hx hz]; simp only [fitness, h]

end Verif.Wfg
