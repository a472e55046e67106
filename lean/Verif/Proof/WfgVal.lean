import Verif.Proof.WfgSum
import Verif.Proof.Dtlz

/-!
# What the WFG problems compute, as functions of the normalised decision vector
-/

set_option autoImplicit false

namespace Verif.Wfg

open Verif Verif.Spec Verif.Analytic Verif.Dtlz Finset

/-- the vector `f 0, ..., f (n - 1)` -/
def tab (n : Nat) (f : Nat → ℝ) : List ℝ := (List.range n).map f

theorem tab_length (n : Nat) (f : Nat → ℝ) : (tab n f).length = n := by simp [tab]

theorem tab_at {n : Nat} {f : Nat → ℝ} {i : Nat} : (tab n f)[i]? = if i < n then some (f i) else none := by
  unfold tab
  rw [List.getElem?_map]
  by_cases h : i < n
  · rw [List.getElem?_range h, if_pos h]; rfl
  · rw [List.getElem?_eq_none (by simpa using h), if_neg h]; rfl

theorem tab_congr {n : Nat} {f g : Nat → ℝ} (h : ∀ i, i < n → f i = g i) : tab n f = tab n g :=
  List.map_congr_left fun i hi => h i (List.mem_range.mp hi)

theorem tab_of {l : List ℝ} {n : Nat} {f : Nat → ℝ} (h1 : l.length = n) (h2 : ∀ i, i < n → l[i]? = some (f i)) : l = tab n f := by
  refine List.ext_getElem? fun i => ?_
  rw [tab_at]
  by_cases h : i < n
  · rw [if_pos h, h2 i h]
  · rw [if_neg h, List.getElem?_eq_none (by omega)]

theorem get_tab {n : Nat} {f : Nat → ℝ} {i : Nat} (h : i < n) : Outcome.get (tab n f) i = .ok (f i) :=
  Outcome.get_eq_ok_iff.mpr (by rw [tab_at, if_pos h])

theorem set_tab {n : Nat} {f : Nat → ℝ} {i : Nat} (h : i < n) (a : ℝ) :
    Outcome.set (tab n f) i a = .ok (tab n (fun j => if j = i then a else f j)) := by
  rw [Outcome.set_of_lt (by rw [tab_length]; exact h)]
  congr 1
  refine tab_of (by rw [List.length_set, tab_length]) fun j hj => ?_
  rw [List.getElem?_set, tab_length, tab_at, if_pos hj]
  by_cases hc : i = j
  · subst hc; rw [if_pos rfl, if_pos h, if_pos rfl]
  · rw [if_neg hc, if_neg (Ne.symm hc)]

theorem rep_tab (n : Nat) (a : ℝ) : List.replicate n a = tab n (fun _ => a) :=
  tab_of (by simp) fun i hi => by simp [hi]

theorem fill_tab {N a n : Nat} {f : Nat → Outcome ℝ} {g v : Nat → ℝ} (hn : a + n ≤ N) (h : ∀ i, a ≤ i → i < a + n → f i = .ok (g i)) :
    fillLoop a n f (tab N v) = .ok (tab N (fun i => if a ≤ i ∧ i < a + n then g i else v i)) := by
  obtain ⟨w, hw, hl, hi⟩ := fillLoop_ok h (tab N v) (by rw [tab_length]; exact hn)
  rw [hw]
  congr 1
  refine tab_of (by rw [hl, tab_length]) fun i hiN => ?_
  rw [hi, tab_at, if_pos hiN]
  split_ifs <;> rfl

theorem fill_all {n : Nat} {f : Nat → Outcome ℝ} {g : Nat → ℝ} (h : ∀ i, i < n → f i = .ok (g i)) :
    fillLoop 0 n f (List.replicate n 0) = .ok (tab n g) := by
  rw [rep_tab, fill_tab (g := g) (by omega) (fun i _ hi => h i (by omega))]
  congr 1
  exact tab_congr fun i hi => if_pos ⟨Nat.zero_le i, by omega⟩

theorem step_tab {N a n : Nat} {F : List ℝ → Nat → Outcome ℝ} {g v : Nat → ℝ} (hn : a + n ≤ N)
    (h : ∀ i, a ≤ i → i < a + n → F (tab N (fun j => if a ≤ j ∧ j < i then g j else v j)) i = .ok (g i)) :
    stepLoop a n F (tab N v) = .ok (tab N (fun i => if a ≤ i ∧ i < a + n then g i else v i)) := by
  induction n with
  | zero =>
    unfold stepLoop
    simp only [List.range'_zero, List.foldlM_nil, Outcome.pure_eq]
    congr 1
    exact tab_congr fun i _ => (if_neg (by omega)).symm
  | succ n ih =>
    have ih := ih (by omega) (fun i h1 h2 => h i h1 (by omega))
    unfold stepLoop at ih ⊢
    rw [List.range'_concat, List.foldlM_append, ih]
    simp only [Outcome.bind_ok, List.foldlM_cons, List.foldlM_nil, one_mul, h (a + n) (by omega) (by omega), Outcome.pure_eq]
    rw [set_tab (by omega)]
    simp only [Outcome.bind_ok]
    congr 1
    refine tab_congr fun i _ => ?_
    by_cases hc : i = a + n
    · subst hc; rw [if_pos rfl, if_pos (by omega)]
    · rw [if_neg hc]
      by_cases h2 : a ≤ i ∧ i < a + n
      · rw [if_pos h2, if_pos (by omega)]
      · rw [if_neg h2, if_neg (by omega)]

theorem range'_tab {α : Type} (a n : Nat) (f : Nat → α) : (List.range' a n).map f = (List.range n).map (fun j => f (a + j)) := by
  rw [List.range'_eq_map_range, List.map_map]; rfl

theorem mapM_range' {α : Type} {a n : Nat} {f : Nat → Outcome α} {g : Nat → α} (h : ∀ i, a ≤ i → i < a + n → f i = .ok (g i)) :
    (List.range' a n).mapM f = .ok ((List.range n).map (fun j => g (a + j))) := by
  rw [← range'_tab]
  induction n with
  | zero => simp
  | succ n ih =>
    rw [List.range'_concat, List.mapM_append, ih (fun i h1 h2 => h i h1 (by omega))]
    simp [h (a + n) (by omega) (by omega)]

theorem slice_tab {N : Nat} {v : Nat → ℝ} {lo len : Nat} (h : lo + len ≤ N) :
    slice (tab N v) lo (lo + len) = .ok (tab len (fun j => v (lo + j))) := by
  unfold slice
  rw [Nat.add_sub_cancel_left, mapM_range' (g := v) (fun i _ hi => get_tab (by omega))]
  rfl

theorem rSum_tab (n : Nat) (y w : Nat → ℝ) :
    rSum (tab n y) (tab n w) = .ok ((∑ j ∈ range n, w j * y j) / ∑ j ∈ range n, w j) := by
  unfold rSum
  rw [tab_length, sumLoop_ok (g := fun j => w j * y j), Outcome.bind_ok, sumLoop_ok (g := w), Outcome.bind_ok, zero_add, zero_add]
  · intro i hi; exact get_tab hi
  · intro i hi
    rw [sumTerm, get_tab hi, Outcome.bind_ok, get_tab hi, Outcome.bind_ok]

theorem weighted_tab {N : Nat} {y : Nat → ℝ} {lo len : Nat} (h : lo + len ≤ N) :
    blockWeighted (tab N y) lo (lo + len) = .ok (Huband.wMean (fun j => 2 * ((j : ℝ) + 1)) y lo len) := by
  unfold blockWeighted
  rw [slice_tab h, Outcome.bind_ok, Nat.add_sub_cancel_left, range'_tab]
  exact rSum_tab _ _ _

theorem mean_tab {N : Nat} {y : Nat → ℝ} {lo len : Nat} (h : lo + len ≤ N) :
    blockMean (tab N y) lo (lo + len) = .ok (Huband.mean y lo len) := by
  unfold blockMean
  rw [slice_tab h, Outcome.bind_ok, Nat.add_sub_cancel_left, rep_tab, rSum_tab, mean_wMean]
  rfl

theorem ceilHalf_eq (a : Nat) : ceilHalf a = (Huband.half a : ℝ) := by
  have : ⌈(a : ℝ) / 2⌉ = (Huband.half a : ℤ) := by
    rw [Int.ceil_eq_iff]
    have h1 : a ≤ 2 * Huband.half a := by unfold Huband.half; omega
    have h2 : 2 * Huband.half a ≤ a + 1 := by unfold Huband.half; omega
    have h1' : (a : ℝ) ≤ 2 * Huband.half a := by exact_mod_cast h1
    have h2' : 2 * (Huband.half a : ℝ) ≤ a + 1 := by exact_mod_cast h2
    push_cast
    constructor <;> linarith
  rw [ceilHalf, this]; norm_num

/-- what the code computes as the non-separable reduction of a block of `n` values: the first factor of the divisor is rounded down -/
noncomputable def cNonsep (n : Nat) (y : Nat → ℝ) (lo : Nat) : ℝ :=
  if n = 1 then y lo
  else spread (fun j => y (lo + j)) n / (((n / 2 : Nat) : ℝ) * (1 + 2 * (n : ℝ) - 2 * (Huband.half n : ℝ)))

theorem nonsepFold_tab {n a : Nat} {y : Nat → ℝ} (m : Nat) (hm : m ≤ n) :
    (List.range m).foldlM (nonsepStep (tab n y) a) 0 =
      .ok (∑ j ∈ range m, (y j + ∑ i ∈ range (a - 1), |y j - y ((j + 1 + i) % n)|)) := by
  induction m with
  | zero => simp
  | succ m ih =>
    rw [List.range_succ, List.foldlM_append, ih (by omega)]
    simp only [Outcome.bind_ok, List.foldlM_cons, List.foldlM_nil, Outcome.pure_eq]
    rw [nonsepStep, get_tab (by omega), Outcome.bind_ok, sumLoop_ok (g := fun i => |y m - y ((m + 1 + i) % n)|)]
    · rw [sum_range_succ]
      simp only [Outcome.bind_ok]
      congr 1; ring
    · intro i _
      rw [nonsepTerm, get_tab (by omega), Outcome.bind_ok, tab_length, get_tab (Nat.mod_lt _ (by omega)), Outcome.bind_ok,
        show 1 + m + i = m + 1 + i by omega]

theorem nonsep_tab {N : Nat} {y : Nat → ℝ} {lo n : Nat} (hn : 0 < n) (h : lo + n ≤ N) :
    blockNonsep (tab N y) n lo (lo + n) = .ok (cNonsep n y lo) := by
  unfold blockNonsep
  rw [slice_tab h, Outcome.bind_ok, rNonsep, cNonsep]
  by_cases h1 : n = 1
  · subst h1
    rw [if_pos rfl, if_pos rfl, tab_length, rep_tab, rSum_tab]
    simp
  · rw [if_neg h1, if_neg h1, tab_length, nonsepFold_tab n le_rfl, Outcome.bind_ok, numer_eq (fun j => y (lo + j)) n, ceilHalf_eq,
      div_self (by exact_mod_cast hn.ne'), one_mul]
    rfl

theorem cNonsep_nonneg {y : Nat → ℝ} {lo n : Nat} (hn : 0 < n) (hy : ∀ j, j < n → 0 ≤ y (lo + j)) : 0 ≤ cNonsep n y lo := by
  unfold cNonsep
  split_ifs with h
  · exact hy 0 hn
  · have h2 : 2 * Huband.half n ≤ n + 1 := by unfold Huband.half; omega
    have h2' : 2 * (Huband.half n : ℝ) ≤ n + 1 := by exact_mod_cast h2
    have hn' : (0 : ℝ) ≤ n := Nat.cast_nonneg n
    exact div_nonneg (spread_nonneg hy) (mul_nonneg (Nat.cast_nonneg _) (by linarith))

theorem cNonsep_zero {y : Nat → ℝ} {lo n : Nat} (hn : 0 < n) (hy : ∀ j, j < n → 0 ≤ y (lo + j)) :
    cNonsep n y lo = 0 ↔ ∀ j, j < n → y (lo + j) = 0 := by
  unfold cNonsep
  split_ifs with h
  · subst h
    constructor
    · intro e j hj
      have : j = 0 := by omega
      subst this; exact e
    · intro e; exact e 0 hn
  · have h2 : 2 * Huband.half n ≤ n + 1 := by unfold Huband.half; omega
    have h2' : 2 * (Huband.half n : ℝ) ≤ n + 1 := by exact_mod_cast h2
    have hn' : (0 : ℝ) < n := by exact_mod_cast hn
    have h3 : 0 < n / 2 := by omega
    have h3' : (0 : ℝ) < ((n / 2 : Nat) : ℝ) := by exact_mod_cast h3
    rw [div_eq_zero_iff, or_iff_left (mul_pos h3' (by linarith)).ne']
    exact spread_zero hy

/-- for a single value and for an even number of them the two agree -/
theorem cNonsep_eq {y : Nat → ℝ} {lo n : Nat} (hn : n = 1 ∨ n % 2 = 0) (h0 : 0 < n) : cNonsep n y lo = Huband.nonsep n y lo n := by
  rw [nonsep_eq h0, cNonsep]
  rcases hn with hn | hn
  · subst hn
    rw [if_pos rfl]
    simp [spread, Huband.half]
  · rw [if_neg (by omega), show n / 2 = Huband.half n by unfold Huband.half; omega]

/-! ## the shared parts -/

/-- the guarantees of the constructor -/
structure Made (p : Wfg) : Prop where
  id1 : 1 ≤ p.id
  id9 : p.id ≤ 9
  two : 2 ≤ p.fdim
  pos : 1 ≤ p.k
  lt : p.k < p.dim
  block : p.k / (p.fdim - 1) * (p.fdim - 1) = p.k
  even : p.id = 2 ∨ p.id = 3 → (p.dim - p.k) % 2 = 0

theorem Made.q_pos {p : Wfg} (hp : Made p) : 0 < p.k / (p.fdim - 1) := by
  rcases Nat.eq_zero_or_pos (p.k / (p.fdim - 1)) with h | h
  · have h1 := hp.block
    have h2 := hp.pos
    rw [h] at h1; omega
  · exact h

theorem Made.lo {p : Wfg} (hp : Made p) (i : Nat) : i * p.k / (p.fdim - 1) = i * (p.k / (p.fdim - 1)) := by
  have h2 := hp.two
  exact Nat.mul_div_assoc i ⟨p.k / (p.fdim - 1), by rw [Nat.mul_comm]; exact hp.block.symm⟩

theorem Made.hi {p : Wfg} (hp : Made p) {i : Nat} (hi : i < p.fdim - 1) :
    i * (p.k / (p.fdim - 1)) + p.k / (p.fdim - 1) ≤ p.k := by
  have h1 : (i + 1) * (p.k / (p.fdim - 1)) ≤ (p.fdim - 1) * (p.k / (p.fdim - 1)) := Nat.mul_le_mul_right _ (by omega)
  rw [Nat.mul_comm (p.fdim - 1), hp.block, Nat.add_mul, one_mul] at h1
  exact h1

theorem Made.fdim_le {p : Wfg} (hp : Made p) : p.fdim ≤ p.dim := by
  have h1 := hp.hi (i := p.fdim - 2) (by have := hp.two; omega)
  have h2 := hp.q_pos
  have h3 : p.fdim - 2 ≤ (p.fdim - 2) * (p.k / (p.fdim - 1)) := Nat.le_mul_of_pos_right _ h2
  have := hp.lt
  have := hp.two
  omega

theorem reduce_tab {p : Wfg} (hp : Made p) {size : Nat} (hs : p.fdim ≤ size) {pos : Nat → Nat → Outcome ℝ} {dist : Outcome ℝ}
    {P : Nat → ℝ} {D : ℝ}
    (hP : ∀ i, i < p.fdim - 1 → pos (i * (p.k / (p.fdim - 1))) (i * (p.k / (p.fdim - 1)) + p.k / (p.fdim - 1)) = .ok (P i))
    (hD : dist = .ok D) :
    ∃ T : Nat → ℝ, reduce p size pos dist = .ok (tab size T) ∧ (∀ i, i < p.fdim - 1 → T i = P i) ∧ T (p.fdim - 1) = D := by
  have h2 := hp.two
  refine ⟨fun j => if j = p.fdim - 1 then D else if 0 ≤ j ∧ j < 0 + (p.fdim - 1) then P j else 0, ?_, ?_, ?_⟩
  · unfold reduce
    rw [rep_tab, fill_tab (g := P) (by omega) (fun i _ hi => by
      rw [hp.lo, hp.lo, Nat.add_mul, one_mul]; exact hP i (by omega)), Outcome.bind_ok, hD, Outcome.bind_ok, set_tab (by omega)]
  · intro i hi
    show (if i = p.fdim - 1 then D else if 0 ≤ i ∧ i < 0 + (p.fdim - 1) then P i else 0) = P i
    rw [if_neg (by omega), if_pos (by omega)]
  · show (if p.fdim - 1 = p.fdim - 1 then D else _) = D
    rw [if_pos rfl]

theorem params_tab {p : Wfg} (hp : Made p) {size : Nat} (hs : p.fdim ≤ size) {deg T : Nat → ℝ} :
    params p deg (tab size T) = .ok (tab p.fdim (fun m =>
      if m < p.fdim - 1 then max (T (p.fdim - 1)) (deg m) * (T m - 1 / 2) + 1 / 2 else T (p.fdim - 1))) := by
  have h2 := hp.two
  have h05 : (0.5 : ℝ) = 1 / 2 := by norm_num
  unfold params
  rw [fill_all (g := fun m => max (T (p.fdim - 1)) (deg m) * (T m - 1 / 2) + 1 / 2), Outcome.bind_ok, get_tab (by omega),
    Outcome.bind_ok, set_tab (by omega)]
  · congr 1
    refine tab_congr fun i hi => ?_
    by_cases hc : i = p.fdim - 1
    · rw [if_pos hc, if_neg (by omega)]
    · rw [if_neg hc, if_pos (by omega)]
  · intro i hi
    rw [paramAt, get_tab (by omega), Outcome.bind_ok, get_tab (by omega), Outcome.bind_ok, h05]

theorem objectives_tab {p : Wfg} (hp : Made p) {x h : Nat → ℝ} :
    objectives p (tab p.fdim x) (tab p.fdim h) = .ok (tab p.fdim (fun m => x (p.fdim - 1) + 2 * ((m : ℝ) + 1) * h m)) := by
  have h2 := hp.two
  unfold objectives
  refine fill_all fun i hi => ?_
  rw [objAt, get_tab (by omega), Outcome.bind_ok, get_tab hi, Outcome.bind_ok]; rfl

theorem half_angle (a : ℝ) : a * Real.pi / 2 = a * (Real.pi / 2) := by ring

theorem prod_first {M : Nat} (c s : Nat → ℝ) : Huband.prodShape M c s 0 = ∏ j ∈ range (M - 1), c j := by
  unfold Huband.prodShape; simp

theorem prod_later {M : Nat} (c s : Nat → ℝ) {m : Nat} (hm : m ≠ 0) :
    Huband.prodShape M c s m = (∏ j ∈ range (M - (m + 1)), c j) * s (M - (m + 1)) := by
  unfold Huband.prodShape
  rw [if_neg hm, show M - 1 - m = M - (m + 1) by omega]

theorem concave_tab {p : Wfg} (hp : Made p) {x : Nat → ℝ} {m : Nat} (hm : m < p.fdim) :
    concave p (tab p.fdim x) (m + 1) = .ok (Huband.concave p.fdim x m) := by
  have h2 := hp.two
  have hs : ∀ i, i < p.fdim → sinOf (tab p.fdim x) i = .ok (Real.sin (x i * (Real.pi / 2))) := fun i hi => by
    rw [sinOf, get_tab hi, Outcome.bind_ok, half_angle]
  unfold concave Huband.concave
  by_cases h0 : m = 0
  · subst h0
    rw [if_pos rfl, mulLoop_ok (fun i hi => hs i (by omega)), one_mul, prod_first]
  · rw [if_neg (by omega), prod_later _ _ h0]
    by_cases h1 : m + 1 > 1 ∧ m + 1 < p.fdim
    · rw [if_pos h1, concaveMid, mulLoop_ok (fun i hi => hs i (by omega)), Outcome.bind_ok, get_tab (by omega), Outcome.bind_ok,
        one_mul, half_angle]
    · rw [if_neg h1, get_tab (by omega), Outcome.bind_ok, half_angle, show p.fdim - (m + 1) = 0 by omega]
      simp

theorem convex_tab {p : Wfg} (hp : Made p) {x : Nat → ℝ} {m : Nat} (hm : m < p.fdim) :
    convex p (tab p.fdim x) (m + 1) = .ok (Huband.convex p.fdim x m) := by
  have h2 := hp.two
  have hs : ∀ i, i < p.fdim → oneMinusCos (tab p.fdim x) i = .ok (1 - Real.cos (x i * (Real.pi / 2))) := fun i hi => by
    rw [oneMinusCos, get_tab hi, Outcome.bind_ok, half_angle]
  unfold convex Huband.convex
  by_cases h0 : m = 0
  · subst h0
    rw [if_pos rfl, mulLoop_ok (fun i hi => hs i (by omega)), one_mul, prod_first]
  · rw [if_neg (by omega), prod_later _ _ h0, mulLoop_ok (fun i hi => hs i (by omega)), Outcome.bind_ok, get_tab (by omega),
      Outcome.bind_ok, one_mul, half_angle]

theorem linear_tab {p : Wfg} (hp : Made p) {x : Nat → ℝ} {m : Nat} (hm : m < p.fdim) :
    linear p (tab p.fdim x) (m + 1) = .ok (Huband.linear p.fdim x m) := by
  have h2 := hp.two
  unfold linear Huband.linear
  by_cases h0 : m = 0
  · subst h0
    rw [if_pos rfl, mulLoop_ok (fun i hi => get_tab (by omega)), one_mul, prod_first]
  · rw [if_neg (by omega), prod_later _ _ h0]
    by_cases h1 : m + 1 > 1 ∧ m + 1 < p.fdim
    · rw [if_pos h1, linearMid, mulLoop_ok (fun i hi => get_tab (by omega)), Outcome.bind_ok, get_tab (by omega), Outcome.bind_ok,
        one_mul]
    · rw [if_neg h1, get_tab (by omega), Outcome.bind_ok, show p.fdim - (m + 1) = 0 by omega]
      simp

theorem shapes_tab {p : Wfg} {f : Nat → Outcome ℝ} {h : Nat → ℝ} (hf : ∀ m, m < p.fdim → f (m + 1) = .ok (h m)) :
    shapes p f = .ok (tab p.fdim h) := fill_all hf

theorem shapesLast_tab {p : Wfg} (hp : Made p) {x : Nat → ℝ} {last : ℝ → ℝ} :
    shapesLast p (tab p.fdim x) last =
      .ok (tab p.fdim (fun m => if m < p.fdim - 1 then Huband.convex p.fdim x m else last (x 0))) := by
  have h2 := hp.two
  unfold shapesLast
  rw [rep_tab, fill_tab (g := Huband.convex p.fdim x) (by omega) (fun i _ hi => convex_tab hp (by omega)), Outcome.bind_ok,
    get_tab (by omega), Outcome.bind_ok, set_tab (by omega)]
  congr 1
  refine tab_congr fun i hi => ?_
  by_cases hc : i = p.fdim - 1
  · rw [if_pos hc, if_neg (by omega)]
  · rw [if_neg hc, if_pos (by omega), if_pos (by omega)]

/-- the code from the final transition vector on: the published objectives -/
theorem concaveFit_tab {p : Wfg} (hp : Made p) (h4 : 4 ≤ p.id) {size : Nat} (hs : p.fdim ≤ size) {T : Nat → ℝ} :
    concaveFit p (tab size T) = .ok (tab p.fdim (Huband.objOf p.id p.fdim T)) := by
  have hd : ∀ m, Huband.degen p.id m = 1 := fun m => if_neg (by omega)
  have hf : ∀ x, Huband.front p.id p.fdim x = Huband.concave p.fdim x := by
    intro x; funext m
    unfold Huband.front
    split
    · omega
    · omega
    · omega
    · rfl
  unfold concaveFit
  rw [params_tab hp hs, Outcome.bind_ok, shapes_tab (h := Huband.concave p.fdim _) (fun m hm => concave_tab hp hm), Outcome.bind_ok,
    objectives_tab hp]
  congr 1
  refine tab_congr fun m _ => ?_
  unfold Huband.objOf
  rw [hf]
  have : Huband.under p.id p.fdim T = fun m =>
      if m < p.fdim - 1 then max (T (p.fdim - 1)) 1 * (T m - 1 / 2) + 1 / 2 else T (p.fdim - 1) := by
    funext m; unfold Huband.under; rw [hd]
  rw [this]; simp

theorem under_last (id M : Nat) (T : Nat → ℝ) : Huband.under id M T (M - 1) = T (M - 1) := by
  unfold Huband.under; rw [if_neg (by omega)]

end Verif.Wfg
