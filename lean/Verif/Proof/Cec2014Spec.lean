import Verif.Proof.Cec2014
import Mathlib.Tactic.IntervalCases

/-!
Lemmas on the model of `cec2014`: hybrids, compositions and the table of shifts.
-/

set_option autoImplicit false
set_option linter.unusedSimpArgs false

namespace Verif.Props

open Verif Verif.Spec
open Verif.Cec13 (entry acc)
open Verif.Cec14 (Fn Hyb Leaf Part Comp)

/-- what is called computes the function of the specification; hybrids only under the condition `hyb` -/
inductive C14LeafIs (hyb : Prop) : Leaf → C14Leaf → Prop
  | basic {f : Fn} {g : C14Fun} (h : C14Is f g) : C14LeafIs hyb (.basic f) (.one g)
  | hybrid {h : Hyb} {ps : List (ℕ × C14Fun)} (hh : hyb)
    (H : ∀ t, 1 ≤ t → List.Forall₂ (C14PieceIs t) ((Cec14.sizes (10 * t) 0 h.gp).zip h.fns) ps) (hs : (ps.map (fun q => q.1)).sum = 10) :
    C14LeafIs hyb (.hybrid h) (.mix ps)

/-- the tables have enough rows, and the point enough entries -/
structure C14Env (hyb : Prop) (rows : Nat) (c : Cec14.Ctx) (x : List ℝ) : Prop where
  two : 2 ≤ c.nx
  point : c.nx ≤ x.length
  table : rows * c.nx ≤ c.os.length
  mats : rows * (c.nx * c.nx) ≤ c.mr.length
  ten : hyb → ∃ t, c.nx = 10 * t
  shuf : hyb → rows * c.nx ≤ c.sh.length
  perm : hyb → ∀ s ∈ c.sh, 1 ≤ s ∧ s ≤ c.nx

theorem cec14_fit {hyb : Prop} {rows : Nat} {c : Cec14.Ctx} {x : List ℝ} (h : C14Env hyb rows c x) {i : Nat} (hi : i < rows) (r : Bool) :
    C14Fit c c.nx (i * c.nx) (i * c.nx * c.nx) true r x := by
  have h2 := h.two
  refine ⟨by omega, h.point, fun _ => ?_, fun _ => ?_⟩
  · have : (i + 1) * c.nx ≤ rows * c.nx := Nat.mul_le_mul_right _ hi
    rw [Nat.add_mul, Nat.one_mul] at this
    exact le_trans this h.table
  · have : (i + 1) * (c.nx * c.nx) ≤ rows * (c.nx * c.nx) := Nat.mul_le_mul_right _ hi
    rw [Nat.add_mul, Nat.one_mul, ← Nat.mul_assoc i] at this
    exact le_trans this h.mats

theorem cec14_leaf {hyb : Prop} {rows : Nat} {c : Cec14.Ctx} {x : List ℝ} (h : C14Env hyb rows c x) {i : Nat} (hi : i < rows) (r : Bool) {l : Leaf}
    {L : C14Leaf} (hl : C14LeafIs hyb l L) :
    l.run c i r x = .ok (L.val c.nx (fun j => (c.sh.getD (i * c.nx + j) 0).toNat) (cec14W c c.nx (i * c.nx) (i * c.nx * c.nx) true r x)) := by
  have hf := cec14_fit h hi r
  cases hl with
  | basic hg => exact hg c c.nx _ _ true r x _ hf (fun _ _ => rfl)
  | @hybrid k ps hh H hs =>
    obtain ⟨t, ht⟩ := h.ten hh
    have h2 := h.two
    have hsh : i * c.nx + c.nx ≤ c.sh.length := by
      have : (i + 1) * c.nx ≤ rows * c.nx := Nat.mul_le_mul_right _ hi
      rw [Nat.add_mul, Nat.one_mul] at this
      exact le_trans this (h.shuf hh)
    have hp : ∀ j < c.nx, 1 ≤ c.sh.getD (i * c.nx + j) 0 ∧ c.sh.getD (i * c.nx + j) 0 ≤ c.nx := by
      intro j hj
      rw [List.getD_eq_getElem?_getD, List.getElem?_eq_getElem (show i * c.nx + j < c.sh.length by omega)]
      exact h.perm hh _ (List.getElem_mem _)
    obtain ⟨z, ez, hz⟩ := cec14_sr hf 1 (w := cec14W c c.nx (i * c.nx) (i * c.nx * c.nx) true r x) (fun _ _ => rfl)
    have es : Cec14.shuffle c (i * c.nx) z = .ok ((List.range c.nx).map (fun j => z (c.sh.getD (i * c.nx + j) 0 - 1).toNat)) := if_pos ⟨hsh, hp⟩
    obtain ⟨vs, evs, hvs⟩ := cec14_pieces (c := c) (o := i * c.nx) (m := i * c.nx * c.nx)
      (y := (List.range c.nx).map (fun j => z (c.sh.getD (i * c.nx + j) 0 - 1).toNat))
      (Y := fun j => cec14W c c.nx (i * c.nx) (i * c.nx * c.nx) true r x ((c.sh.getD (i * c.nx + j) 0).toNat - 1))
      (fun j hj => by
        simp only [List.length_map, List.length_range] at hj
        obtain ⟨p1, p2⟩ := hp j hj
        rw [cec13_entryMap _ _ (by simpa using hj), List.getElem_range,
          show (c.sh.getD (i * c.nx + j) 0 - 1).toNat = (c.sh.getD (i * c.nx + j) 0).toNat - 1 by omega, hz _ (by omega), one_mul])
      (H t (by omega)) 0 (by
        rw [hs, List.length_map, List.length_range, ht, Nat.zero_add])
    rw [Nat.zero_mul] at evs
    simp only [Leaf.run, Hyb.run, ez, es, Outcome.bind_ok]
    rw [← ht] at evs hvs
    rw [evs]
    simp only [Outcome.bind_ok]
    rw [hvs 0, zero_add]
    rfl

/-! ## the table of shifts -/

theorem cec14_eraseRow (dim : Nat) (row rest : List ℝ) (i : Nat) (h : i % 100 + row.length ≤ 100) :
    Cec14.eraseTail dim i (row ++ rest) = row.take (dim - i % 100) ++ Cec14.eraseTail dim (i + row.length) rest := by
  induction row generalizing i with
  | nil => simp
  | cons a row ih =>
    rw [List.length_cons] at h
    rw [List.cons_append, List.length_cons]
    have hr : row = [] ∨ (i + 1) % 100 = i % 100 + 1 := by
      cases row with
      | nil => exact Or.inl rfl
      | cons b row => rw [List.length_cons] at h; right; omega
    have e : Cec14.eraseTail dim (i + 1) (row ++ rest) = row.take (dim - (i % 100 + 1)) ++ Cec14.eraseTail dim (i + (row.length + 1)) rest := by
      rcases hr with rfl | hr
      · simp
      · rw [ih (i + 1) (by omega), hr, show i + 1 + row.length = i + (row.length + 1) by omega]
    rw [show Cec14.eraseTail dim i (a :: (row ++ rest)) = if dim ≤ i % 100 then Cec14.eraseTail dim (i + 1) (row ++ rest)
      else a :: Cec14.eraseTail dim (i + 1) (row ++ rest) from rfl]
    by_cases hd : dim ≤ i % 100
    · rw [if_pos hd, e, show dim - (i % 100 + 1) = 0 by omega, show dim - i % 100 = 0 by omega]
      rfl
    · rw [if_neg hd, e, show dim - i % 100 = dim - (i % 100 + 1) + 1 by omega]
      rfl

theorem cec14_erase {dim : Nat} (hd : dim ≤ 100) (l : List ℝ) (r : Nat) (h : 100 ≤ l.length) :
    Cec14.eraseTail dim (100 * r) l = l.take dim ++ Cec14.eraseTail dim (100 * (r + 1)) (l.drop 100) := by
  have e := cec14_eraseRow dim (l.take 100) (l.drop 100) (100 * r) (by simp)
  rw [List.take_append_drop, List.length_take, Nat.min_eq_left h, List.take_take, Nat.mul_mod_right, Nat.sub_zero, Nat.min_eq_left hd] at e
  exact e

theorem cec14_shifts {dim : Nat} (hd : dim ≤ 100) (l : List ℝ) (r k : Nat) (h : 100 * (k + 1) ≤ l.length) :
    (k + 1) * dim ≤ (Cec14.eraseTail dim (100 * r) l).length ∧
      ∀ i < dim, (Cec14.eraseTail dim (100 * r) l).getD (k * dim + i) 0 = l.getD (k * 100 + i) 0 := by
  have e := cec14_erase hd l r (by omega)
  have ht : (l.take dim).length = dim := by rw [List.length_take]; omega
  induction k generalizing l r with
  | zero =>
    rw [e]
    refine ⟨by rw [List.length_append, ht]; omega, fun i hi => ?_⟩
    rw [Nat.zero_mul, Nat.zero_mul, Nat.zero_add, List.getD_eq_getElem?_getD, List.getElem?_append_left (by omega),
      List.getD_eq_getElem?_getD, List.getElem?_take_of_lt hi]
  | succ k ih =>
    have hk : 100 * (k + 1) ≤ (l.drop 100).length := by rw [List.length_drop]; omega
    obtain ⟨h1, h2⟩ := ih (l.drop 100) (r + 1) hk (cec14_erase hd _ _ (by omega)) (by rw [List.length_take]; omega)
    rw [e]
    refine ⟨by rw [List.length_append, ht, Nat.add_mul (k + 1) 1]; omega, fun i hi => ?_⟩
    rw [List.getD_eq_getElem?_getD, List.getElem?_append_right (by rw [ht, Nat.add_mul]; omega), ht,
      show (k + 1) * dim + i - dim = k * dim + i by rw [Nat.add_mul]; omega, ← List.getD_eq_getElem?_getD, h2 i hi, List.getD_eq_getElem?_getD, List.getElem?_drop, ← List.getD_eq_getElem?_getD]
    rw [show 100 + (k * 100 + i) = (k + 1) * 100 + i by ring]

/-! ## compositions -/

theorem cec14_dblMax : Cec14.dblMax = (2 ^ 53 - 1) * 2 ^ 971 := by
  unfold Cec14.dblMax
  rw [show (2 : ℝ) ^ 1023 = 2 ^ 52 * 2 ^ 971 by rw [← pow_add]]
  norm_num
  ring

theorem cec14_dblMax_pos : 0 < Cec14.dblMax := by
  rw [cec14_dblMax]
  exact mul_pos (by norm_num) (by positivity)

theorem cec14_weight_pos (c : Cec14.Ctx) (x : List ℝ) (d : ℝ) (i : Nat) : 0 < Cec14.weight c x d i := by
  unfold Cec14.weight
  have h0 : 0 ≤ acc c.nx (fun j => (entry x j - entry c.os (i * c.nx + j)) ^ 2) := cec13_acc_nonneg (fun _ _ => sq_nonneg _)
  simp only
  split
  · rename_i hne
    have hp : 0 < acc c.nx (fun j => (entry x j - entry c.os (i * c.nx + j)) ^ 2) := lt_of_le_of_ne h0 (Ne.symm hne)
    exact mul_pos (Real.rpow_pos_of_pos (by positivity) _) (Real.exp_pos _)
  · exact cec14_dblMax_pos

/-- the weighted mean that `cf_cal` computes -/
theorem cec14_cfCal {c : Cec14.Ctx} {x delta bias fit : List ℝ} (hx : c.nx ≤ x.length) (ho : fit.length * c.nx ≤ c.os.length) (hf : fit ≠ []) :
    Cec14.cfCal c x delta bias fit = .ok ((∑ i ∈ Finset.range fit.length, Cec14.weight c x (entry delta i) i * (entry fit i + entry bias i))
      / ∑ i ∈ Finset.range fit.length, Cec14.weight c x (entry delta i) i) := by
  unfold Cec14.cfCal
  rw [if_pos ⟨hx, ho⟩]
  have hm := cec13_foldMax (w := fun i => Cec14.weight c x (entry delta i) i) (fun i => cec14_weight_pos _ _ _ _) (List.range fit.length) 0 le_rfl
    (Or.inl (by simpa using hf))
  simp only [ne_of_gt hm, if_false]
  rw [cec13_acc, cec13_acc, Finset.sum_div]
  refine congrArg Outcome.ok (Finset.sum_congr rfl (fun i _ => ?_))
  ring

theorem cec14_weightS (c : Cec14.Ctx) (x : List ℝ) (d : ℝ) (i : Nat) {o : ℕ → ℝ} (ho : ∀ j < c.nx, c.os.getD (i * c.nx + j) 0 = o j) :
    Cec14.weight c x d i = c14Weight c.nx o d (fun j => x.getD j 0) := by
  unfold Cec14.weight c14Weight
  rw [cec13_sum (h := fun j => (x.getD j 0 - o j) ^ 2) (fun j hj => by rw [← ho j hj]; rfl)]
  simp only [cec13_half]
  show (if ¬ _ then _ else _) = _
  rw [ite_not, cec14_dblMax]
  refine if_congr Iff.rfl rfl ?_
  rw [Real.sqrt_div zero_le_one, Real.sqrt_one, div_div, div_div, ← mul_assoc]

/-- a component of the class is one of the specification -/
structure C14PartIs (hyb : Prop) (p : Part) (q : C14Part) : Prop where
  leaf : C14LeafIs hyb p.leaf q.1
  flag : p.flag = q.2.1
  scale : p.num / p.den = q.2.2.1

/-- the value of a leaf with the `k`-th row of the tables of the object -/
noncomputable def cec14Val (c : Cec14.Ctx) (x : List ℝ) (L : C14Leaf) (r : Bool) (k : Nat) : ℝ :=
  L.val c.nx (fun j => (c.sh.getD (k * c.nx + j) 0).toNat) (cec14W c c.nx (k * c.nx) (k * c.nx * c.nx) true r x)

theorem cec14_fits {hyb : Prop} {rows : Nat} {c : Cec14.Ctx} {x : List ℝ} (h : C14Env hyb rows c x) {ps : List Part} {qs : List C14Part}
    (H : List.Forall₂ (C14PartIs hyb) ps qs) (i : Nat) (hl : i + ps.length ≤ rows) :
    Cec14.fits c x i ps = .ok ((qs.zipIdx i).map (fun q => q.1.2.2.1 * cec14Val c x q.1.1 q.1.2.1 q.2)) := by
  induction H generalizing i with
  | nil => rfl
  | @cons p q ps qs hpq _ ih =>
    rw [List.length_cons] at hl
    simp only [Cec14.fits, cec14_leaf h (show i < rows by omega) p.flag hpq.leaf, ih (i + 1) (by omega), Outcome.bind_ok, List.zipIdx_cons, List.map_cons]
    rw [mul_div_right_comm, hpq.scale, hpq.flag]
    rfl

theorem cec14_compS {hyb : Prop} {c : Cec14.Ctx} {x : List ℝ} {q : Comp} {qs : List C14Part} (h : C14Env hyb qs.length c x)
    (H : List.Forall₂ (C14PartIs hyb) q.parts qs) (hl : qs ≠ []) :
    Cec14.comp c q x = .ok
      ((∑ i ∈ Finset.range qs.length, Cec14.weight c x (entry q.delta i) i *
          (entry (qs.zipIdx.map (fun q => q.1.2.2.1 * cec14Val c x q.1.1 q.1.2.1 q.2)) i + entry q.bias i))
        / ∑ i ∈ Finset.range qs.length, Cec14.weight c x (entry q.delta i) i) := by
  have e := cec14_fits h H 0 (by rw [H.length_eq]; omega)
  simp only [Cec14.comp, e, Outcome.bind_ok]
  rw [cec14_cfCal h.point (by simp only [List.length_map, List.length_zipIdx]; exact h.table) (by simpa using hl)]
  simp only [List.length_map, List.length_zipIdx]

section
attribute [local irreducible] Cec14.ellips Cec14.bentCigar Cec14.discus Cec14.rosenbrock Cec14.ackley Cec14.weierstrass Cec14.griewank Cec14.rastrigin
  Cec14.schwefel Cec14.katsuura Cec14.grieRosen Cec14.escaffer6 Cec14.happycat Cec14.hgbat c14Elliptic c14Cigar c14Discus c14Rosenbrock c14Ackley
  c14Weierstrass c14Griewank c14Rastrigin c14Schwefel c14Katsuura c14GrieRosen c14Scaffer c14HappyCat c14HGBat

theorem cec14_piece {t : Nat} {k : Nat} {f : Fn} {j : ℕ} {g : C14Fun} (h : C14Is f g) (e : k = j * t) (hk : 1 ≤ k) : C14PieceIs t (k, f) (j, g) := ⟨h, e, hk⟩

theorem cec14_h1 {hyb : Prop} (hh : hyb) : C14LeafIs hyb (.hybrid Cec14.hf01) c14H1 := .hybrid hh (fun t ht => by
  simp only [Cec14.hf01, Cec14.sizes, List.zip_cons_cons, List.zip_nil_left]
  exact .cons (cec14_piece cec14_isSchwefel (by omega) (by omega)) (.cons (cec14_piece cec14_isRastrigin (by omega) (by omega))
    (.cons (cec14_piece cec14_isElliptic (by omega) (by omega)) .nil))) rfl

theorem cec14_h2 {hyb : Prop} (hh : hyb) : C14LeafIs hyb (.hybrid Cec14.hf02) c14H2 := .hybrid hh (fun t ht => by
  simp only [Cec14.hf02, Cec14.sizes, List.zip_cons_cons, List.zip_nil_left]
  exact .cons (cec14_piece cec14_isCigar (by omega) (by omega)) (.cons (cec14_piece cec14_isHGBat (by omega) (by omega))
    (.cons (cec14_piece cec14_isRastrigin (by omega) (by omega)) .nil))) rfl

theorem cec14_h3 {hyb : Prop} (hh : hyb) : C14LeafIs hyb (.hybrid Cec14.hf03) c14H3 := .hybrid hh (fun t ht => by
  simp only [Cec14.hf03, Cec14.sizes, List.zip_cons_cons, List.zip_nil_left]
  exact .cons (cec14_piece cec14_isGriewank (by omega) (by omega)) (.cons (cec14_piece cec14_isWeierstrass (by omega) (by omega))
    (.cons (cec14_piece cec14_isRosenbrock (by omega) (by omega)) (.cons (cec14_piece cec14_isScaffer (by omega) (by omega)) .nil)))) rfl

theorem cec14_h4 {hyb : Prop} (hh : hyb) : C14LeafIs hyb (.hybrid Cec14.hf04) c14H4 := .hybrid hh (fun t ht => by
  simp only [Cec14.hf04, Cec14.sizes, List.zip_cons_cons, List.zip_nil_left]
  exact .cons (cec14_piece cec14_isHGBat (by omega) (by omega)) (.cons (cec14_piece cec14_isDiscus (by omega) (by omega))
    (.cons (cec14_piece cec14_isGrieRosen (by omega) (by omega)) (.cons (cec14_piece cec14_isRastrigin (by omega) (by omega)) .nil)))) rfl

theorem cec14_h5 {hyb : Prop} (hh : hyb) : C14LeafIs hyb (.hybrid Cec14.hf05) c14H5 := .hybrid hh (fun t ht => by
  simp only [Cec14.hf05, Cec14.sizes, List.zip_cons_cons, List.zip_nil_left]
  exact .cons (cec14_piece cec14_isScaffer (by omega) (by omega)) (.cons (cec14_piece cec14_isHGBat (by omega) (by omega))
    (.cons (cec14_piece cec14_isRosenbrock (by omega) (by omega)) (.cons (cec14_piece cec14_isSchwefel (by omega) (by omega))
    (.cons (cec14_piece cec14_isElliptic (by omega) (by omega)) .nil))))) rfl

theorem cec14_h6 {hyb : Prop} (hh : hyb) : C14LeafIs hyb (.hybrid Cec14.hf06) c14H6 := .hybrid hh (fun t ht => by
  simp only [Cec14.hf06, Cec14.sizes, List.zip_cons_cons, List.zip_nil_left]
  exact .cons (cec14_piece cec14_isKatsuura (by omega) (by omega)) (.cons (cec14_piece cec14_isHappyCat (by omega) (by omega))
    (.cons (cec14_piece cec14_isGrieRosen (by omega) (by omega)) (.cons (cec14_piece cec14_isSchwefel (by omega) (by omega))
    (.cons (cec14_piece cec14_isAckley (by omega) (by omega)) .nil))))) rfl

theorem cec14_singlesS (k : Nat) (s : C14Leaf × Bool) (hs : c14Singles[k]? = some s) :
    ∃ p, Cec14.singles[k]? = some p ∧ C14LeafIs (16 ≤ k) p.1 s.1 ∧ p.2 = s.2 := by
  have hk : k < 22 := by
    by_contra hk
    rw [List.getElem?_eq_none (by simp [c14Singles]; omega)] at hs
    cases hs
  interval_cases k <;>
    (simp only [c14Singles, List.getElem?_cons_succ, List.getElem?_cons_zero, Option.some.injEq] at hs
     subst hs
     refine ⟨_, rfl, ?_, rfl⟩
     first
       | exact .basic cec14_isElliptic
       | exact .basic cec14_isCigar
       | exact .basic cec14_isDiscus
       | exact .basic cec14_isRosenbrock
       | exact .basic cec14_isAckley
       | exact .basic cec14_isWeierstrass
       | exact .basic cec14_isGriewank
       | exact .basic cec14_isRastrigin
       | exact .basic cec14_isSchwefel
       | exact .basic cec14_isKatsuura
       | exact .basic cec14_isHappyCat
       | exact .basic cec14_isHGBat
       | exact .basic cec14_isGrieRosen
       | exact .basic cec14_isScaffer
       | exact cec14_h1 (by norm_num)
       | exact cec14_h2 (by norm_num)
       | exact cec14_h3 (by norm_num)
       | exact cec14_h4 (by norm_num)
       | exact cec14_h5 (by norm_num)
       | exact cec14_h6 (by norm_num))

theorem cec14_part {hyb : Prop} {f : Fn} {g : C14Fun} (h : C14Is f g) {flag : Bool} {num den l s b : ℝ} (e : num / den = l) :
    C14PartIs hyb ⟨.basic f, flag, num, den⟩ (.one g, flag, l, s, b) := ⟨.basic h, rfl, e⟩

theorem cec14_partH {hyb : Prop} {h : Hyb} {L : C14Leaf} (H : C14LeafIs hyb (.hybrid h) L) {flag : Bool} {num den l s b : ℝ} (e : num / den = l) :
    C14PartIs hyb ⟨.hybrid h, flag, num, den⟩ (L, flag, l, s, b) := ⟨H, rfl, e⟩

theorem cec14_compsS (k : Nat) (s : List C14Part) (hs : c14Comps[k]? = some s) :
    ∃ q, Cec14.comps[k]? = some q ∧ List.Forall₂ (C14PartIs (6 ≤ k)) q.parts s ∧ q.delta = s.map (fun p => p.2.2.2.1) ∧
      q.bias = s.map (fun p => p.2.2.2.2) ∧ s ≠ [] ∧ s.length = c14Rows (k + 23) ∧ k < 8 := by
  have hk : k < 8 := by
    by_contra hk
    rw [List.getElem?_eq_none (by simp [c14Comps]; omega)] at hs
    cases hs
  interval_cases k <;>
    (simp only [c14Comps, List.getElem?_cons_succ, List.getElem?_cons_zero, Option.some.injEq] at hs
     subst hs
     refine ⟨_, rfl, ?_, rfl, rfl, by simp, by simp [c14Rows], by norm_num⟩
     simp only [List.forall₂_cons, List.Forall₂.nil, and_true]
     repeat' apply And.intro
     all_goals
       first
         | exact cec14_part cec14_isSchwefel (by norm_num)
         | exact cec14_part cec14_isRosenbrock (by norm_num)
         | exact cec14_part cec14_isElliptic (by norm_num)
         | exact cec14_part cec14_isCigar (by norm_num)
         | exact cec14_part cec14_isDiscus (by norm_num)
         | exact cec14_part cec14_isRastrigin (by norm_num)
         | exact cec14_part cec14_isHGBat (by norm_num)
         | exact cec14_part cec14_isHappyCat (by norm_num)
         | exact cec14_part cec14_isWeierstrass (by norm_num)
         | exact cec14_part cec14_isGriewank (by norm_num)
         | exact cec14_part cec14_isGrieRosen (by norm_num)
         | exact cec14_part cec14_isScaffer (by norm_num)
         | exact cec14_partH (cec14_h1 (by norm_num)) (by norm_num)
         | exact cec14_partH (cec14_h2 (by norm_num)) (by norm_num)
         | exact cec14_partH (cec14_h3 (by norm_num)) (by norm_num)
         | exact cec14_partH (cec14_h4 (by norm_num)) (by norm_num)
         | exact cec14_partH (cec14_h5 (by norm_num)) (by norm_num)
         | exact cec14_partH (cec14_h6 (by norm_num)) (by norm_num))

end

end Verif.Props
