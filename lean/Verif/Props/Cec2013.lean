import Verif.Proof.Cec2013Spec
import Mathlib.Tactic.IntervalCases

/-!
# Properties of `cec2013`: C150 (shape), C151 (minimum), C152 (formulas)

Every theorem holds for all tables of shifts and matrices that are long enough: five shifts and six matrices.
-/

set_option autoImplicit false

namespace Verif.Props

open Verif Verif.Cec13 Verif.Spec

/-- an object made by the constructor, tables with five shifts and six matrices, and a point of the right length -/
structure CecReady (md : Nat → List ℝ) (sd : List ℝ) (id dim : Nat) (c : Ctx) (x : List ℝ) : Prop where
  made : Cec13.construct md sd id dim = .ok c
  shifts : 5 * dim ≤ sd.length
  mats : 6 * (dim * dim) ≤ (md dim).length
  point : x.length = dim

theorem cec13_construct {md : Nat → List ℝ} {sd : List ℝ} {id dim : Nat} {c : Ctx} (h : Cec13.construct md sd id dim = .ok c) :
    dim ∈ dims ∧ 1 ≤ id ∧ id ≤ 28 ∧ c = ⟨dim, sd, md dim⟩ := by
  unfold Cec13.construct at h
  by_cases h1 : dim ∉ dims
  · rw [if_pos h1] at h; exact absurd h (by simp)
  · rw [if_neg h1] at h
    by_cases h2 : id < 1 ∨ 28 < id
    · rw [if_pos h2] at h; exact absurd h (by simp)
    · rw [if_neg h2] at h
      injection h with h
      exact ⟨not_not.1 h1, by omega, by omega, h.symm⟩

theorem cec13_dims {dim : Nat} (h : dim ∈ dims) : 2 ≤ dim := by
  simp only [dims, List.mem_cons, List.not_mem_nil, or_false] at h
  omega

/-- C150: the constructor accepts the twelve dimensions and the ids 1 to 28, and throws otherwise -/
theorem C150_construct (md : Nat → List ℝ) (sd : List ℝ) (id dim : Nat) :
    ((dim ∈ [2, 5, 10, 20, 30, 40, 50, 60, 70, 80, 90, 100] ∧ 1 ≤ id ∧ id ≤ 28) → ∃ c, Cec13.construct md sd id dim = .ok c ∧ c.nx = dim) ∧
      (¬(dim ∈ [2, 5, 10, 20, 30, 40, 50, 60, 70, 80, 90, 100] ∧ 1 ≤ id ∧ id ≤ 28) → Cec13.construct md sd id dim = .throws .invalidArgument) := by
  unfold Cec13.construct dims
  constructor
  · rintro ⟨h1, h2, h3⟩
    rw [if_neg (not_not.2 h1), if_neg (by omega)]
    exact ⟨_, rfl, rfl⟩
  · intro h
    by_cases h1 : dim ∉ [2, 5, 10, 20, 30, 40, 50, 60, 70, 80, 90, 100]
    · rw [if_pos h1]
    · rw [if_neg h1, if_pos]
      by_contra h2
      exact h ⟨not_not.1 h1, by omega, by omega⟩

example (md : Nat → List ℝ) (sd : List ℝ) : Cec13.construct md sd 28 100 = .ok ⟨100, sd, md 100⟩ := rfl

example (md : Nat → List ℝ) (sd : List ℝ) : Cec13.construct md sd 3 3 = .throws .invalidArgument := rfl

/-- C150: the box -/
theorem C150_bounds {md : Nat → List ℝ} {sd : List ℝ} {id dim : Nat} {c : Ctx} (h : Cec13.construct md sd id dim = .ok c) :
    (Cec13.bounds c).1.length = dim ∧ (Cec13.bounds c).2.length = dim ∧ (∀ l ∈ (Cec13.bounds c).1, l = -100) ∧ (∀ u ∈ (Cec13.bounds c).2, u = 100) := by
  obtain ⟨-, -, -, rfl⟩ := cec13_construct h
  refine ⟨by simp [Cec13.bounds], by simp [Cec13.bounds], fun l hl => ?_, fun u hu => ?_⟩
  · exact List.eq_of_mem_replicate hl
  · exact List.eq_of_mem_replicate hu

theorem cec13_fit0 {c : Ctx} {x : List ℝ} (hn : 2 ≤ c.nx) (hx : c.nx ≤ x.length) (ho : 5 * c.nx ≤ c.os.length)
    (hm : 6 * (c.nx * c.nx) ≤ c.mr.length) : CecFit c (0 * c.nx) (0 * c.nx * c.nx) x :=
  ⟨hn, hx, by omega, by rw [Nat.zero_mul, Nat.zero_mul]; omega⟩

theorem cec13_biases {id : Nat} (h1 : 1 ≤ id) (h2 : id ≤ 28) : entry biases (id - 1) = c13Best id := by
  interval_cases id <;> norm_num [entry, biases, c13Best]

theorem cec13_basicBest (k : Nat) (s : C13Fun × Bool × ℝ) (h : c13Basics[k]? = some s) : s.2.2 = entry biases k ∧ k < 20 := by
  have hk : k < 20 := by
    by_contra hk
    rw [List.getElem?_eq_none (by simp [c13Basics]; omega)] at h
    cases h
  refine ⟨?_, hk⟩
  interval_cases k <;> (simp only [c13Basics, List.getElem?_cons_succ, List.getElem?_cons_zero, Option.some.injEq] at h; subst h; norm_num [entry, biases])

theorem cec13_compBest (k : Nat) (s : List C13Part × ℝ) (h : c13Comps[k]? = some s) : s.2 = entry biases (k + 20) ∧ k < 8 := by
  have hk : k < 8 := by
    by_contra hk
    rw [List.getElem?_eq_none (by simp [c13Comps]; omega)] at h
    cases h
  refine ⟨?_, hk⟩
  interval_cases k <;> (simp only [c13Comps, List.getElem?_cons_succ, List.getElem?_cons_zero, Option.some.injEq] at h; subst h; norm_num [entry, biases])

theorem cec13_forall2 {α β : Type} {R : α → β → Prop} {l : List α} {m : List β} (h : List.Forall₂ R l m) (k : Nat) (b : β) (hb : m[k]? = some b) :
    ∃ a, l[k]? = some a ∧ R a b := by
  induction h generalizing k with
  | nil => simp at hb
  | cons hab _ ih =>
    cases k with
    | zero =>
      simp only [List.getElem?_cons_zero, Option.some.injEq] at hb ⊢
      subst hb
      exact ⟨_, rfl, hab⟩
    | succ k =>
      simp only [List.getElem?_cons_succ] at hb ⊢
      exact ih k hb

/-! ## C152 -/

/-- C152: the problems 1 to 20 are the functions of the specification, with the first shift and the first two matrices -/
theorem C152_basic {md : Nat → List ℝ} {sd : List ℝ} {id dim : Nat} {c : Ctx} {x : List ℝ} (h : CecReady md sd id dim c x)
    (g : C13Fun) (rot : Bool) (b : ℝ) (hg : c13Basics[id - 1]? = some (g, rot, b)) :
    Cec13.fitness id c x = .ok [c13At g rot dim sd (md dim) 0 x + b] := by
  obtain ⟨hd, h1, -, rfl⟩ := cec13_construct h.made
  obtain ⟨k, rfl⟩ : ∃ k, id = k + 1 := ⟨id - 1, by omega⟩
  rw [Nat.add_sub_cancel] at hg
  obtain ⟨p, hp, e1, e2⟩ := cec13_forall2 cec13_basicsS k _ hg
  obtain ⟨hb, -⟩ := cec13_basicBest k _ hg
  have hat := cec13_at (k := 0) (flag := p.2) e1 (cec13_fit0 (c := ⟨dim, sd, md dim⟩) (cec13_dims hd) h.point.ge h.shifts h.mats)
  rw [Nat.zero_mul, Nat.zero_mul] at hat
  simp only at e2 hb hat
  rw [e2] at hat
  simp only [Cec13.fitness, hp, e2, hat, Outcome.bind_ok, hb]

/-- C152: the problems 21 to 28 are weighted means of functions of the specification -/
theorem C152_composition {md : Nat → List ℝ} {sd : List ℝ} {id dim : Nat} {c : Ctx} {x : List ℝ} (h : CecReady md sd id dim c x) (hid : 21 ≤ id)
    (ps : List C13Part) (b : ℝ) (hg : c13Comps[id - 21]? = some (ps, b)) :
    Cec13.fitness id c x = .ok [c13Comp ps dim sd (md dim) x + b] := by
  obtain ⟨hd, -, -, rfl⟩ := cec13_construct h.made
  obtain ⟨k, rfl⟩ : ∃ k, id = k + 20 + 1 := ⟨id - 21, by omega⟩
  rw [show k + 20 + 1 - 21 = k by omega] at hg
  obtain ⟨q, hq, e1, e2, e3, e4, e5⟩ := cec13_forall2 cec13_compsS k _ hg
  obtain ⟨hb, hk⟩ := cec13_compBest k _ hg
  have hc := cec13_compS (c := ⟨dim, sd, md dim⟩) (cec13_dims hd) h.point.ge h.shifts h.mats e1 e2 e3 e4 e5
  have hn : basics[k + 20]? = none := List.getElem?_eq_none (by simp [basics])
  simp only at hb
  simp only [Cec13.fitness, hn, Nat.add_sub_cancel, hq, hc, Outcome.bind_ok, hb]

/-- C152: every problem is covered by one of the two theorems -/
theorem C152_all {id : Nat} (h1 : 1 ≤ id) (h2 : id ≤ 28) :
    (∃ g rot b, c13Basics[id - 1]? = some (g, rot, b)) ∨ (21 ≤ id ∧ ∃ ps b, c13Comps[id - 21]? = some (ps, b)) := by
  by_cases h : id ≤ 20
  · left
    obtain ⟨s, hs⟩ : ∃ s, c13Basics[id - 1]? = some s := ⟨_, List.getElem?_eq_getElem (by simp [c13Basics]; omega)⟩
    exact ⟨s.1, s.2.1, s.2.2, hs⟩
  · right
    obtain ⟨s, hs⟩ : ∃ s, c13Comps[id - 21]? = some s := ⟨_, List.getElem?_eq_getElem (by simp [c13Comps]; omega)⟩
    exact ⟨by omega, s.1, s.2, hs⟩

/-- C150: the fitness is one number, whatever the tables contain -/
theorem C150_fitness {md : Nat → List ℝ} {sd : List ℝ} {id dim : Nat} {c : Ctx} {x : List ℝ} (h : CecReady md sd id dim c x) :
    ∃ v, Cec13.fitness id c x = .ok [v] := by
  obtain ⟨-, h1, h2, -⟩ := cec13_construct h.made
  rcases C152_all h1 h2 with ⟨g, rot, b, hg⟩ | ⟨hid, ps, b, hg⟩
  · exact ⟨_, C152_basic h g rot b hg⟩
  · exact ⟨_, C152_composition h hid ps b hg⟩

/-- C152: problem 19, called rotated, does not depend on the matrices -/
theorem C152_no_rotation {md md' : Nat → List ℝ} {sd : List ℝ} {dim : Nat} {c c' : Ctx} {x : List ℝ} (h : CecReady md sd 19 dim c x)
    (h' : CecReady md' sd 19 dim c' x) : Cec13.fitness 19 c x = Cec13.fitness 19 c' x := by
  rw [C152_basic h c13GrieRosen true 500 rfl, C152_basic h' c13GrieRosen true 500 rfl]
  rfl

/-- two dimensions, no shift, the first matrix a rotation by a quarter, the others the identity -/
def cec13Quarter : Nat → List ℝ := fun _ => [0, 1, -1, 0, 1, 0, 0, 1, 1, 0, 0, 1, 1, 0, 0, 1, 1, 0, 0, 1, 1, 0, 0, 1]

theorem cec13_quarterReady (x : List ℝ) (hx : x.length = 2) :
    CecReady cec13Quarter (List.replicate 10 0) 3 2 ⟨2, List.replicate 10 0, cec13Quarter 2⟩ x :=
  ⟨rfl, by simp, by simp [cec13Quarter], hx⟩

/-- C152, false of the code: problem 3 is not the report's bent cigar, since `T_asy` keeps the unrotated entries -/
theorem C152_report_differs :
    ∃ (c : Ctx) (x : List ℝ), CecReady cec13Quarter (List.replicate 10 0) 3 2 c x ∧ Cec13.fitness 3 c x = .ok [-1199] ∧
      c13At c13CigarReport true 2 (List.replicate 10 0) (cec13Quarter 2) 0 x - 1200 = 998800 := by
  refine ⟨_, [1, 0], cec13_quarterReady [1, 0] rfl, ?_, ?_⟩
  · rw [C152_basic (cec13_quarterReady [1, 0] rfl) c13Cigar true (-1200) rfl]
    have he : (Finset.range 2).erase 0 = {1} := by decide
    norm_num [c13At, c13Cigar, c13Mul, c13Asy, c13Mat, c13Shift, cec13Quarter, Finset.sum_range_succ, he, List.getD]
  · have he : (Finset.range 2).erase 0 = {1} := by decide
    norm_num [c13At, c13CigarReport, c13AsyReport, c13Mul, c13Asy, c13Mat, c13Shift, cec13Quarter, Finset.sum_range_succ, he, List.getD]

/-! ## C151 -/

theorem cec13_run {id k : Nat} (hk : id = k + 1) {c : Ctx} {x : List ℝ} {p : (Ctx → Nat → Nat → Bool → List ℝ → Outcome ℝ) × Bool}
    (hp : basics[k]? = some p) {e : ℝ} (hf : CecFloor (p.1 c 0 0 p.2 x) (CecAt c 0 x) e) :
    ∃ v, Cec13.fitness id c x = .ok [v + entry biases (id - 1)] ∧ -e ≤ v ∧ (CecAt c 0 x → v ≤ e) := by
  subst hk
  obtain ⟨v, ev, h1, h2⟩ := hf
  exact ⟨v, by simp only [Cec13.fitness, hp, ev, Outcome.bind_ok, Nat.add_sub_cancel], h1, h2⟩

section
attribute [local irreducible] sphere ellips bentCigar discus difPowers rosenbrock schafferF7 ackley weierstrass griewank rastrigin stepRastrigin
  schwefel katsuura biRastrigin grieRosen escaffer6

theorem cec13_floor0 {k : Nat} (hk : k < 20) (h13 : k ≠ 13) (h14 : k ≠ 14) {p : (Ctx → Nat → Nat → Bool → List ℝ → Outcome ℝ) × Bool}
    (hp : basics[k]? = some p) {c : Ctx} {x : List ℝ} (h : CecFit c 0 0 x) : CecFloor (p.1 c 0 0 p.2 x) (CecAt c 0 x) 0 := by
  interval_cases k <;>
    first
      | exact absurd rfl h13
      | exact absurd rfl h14
      | (simp only [basics, List.getElem?_cons_succ, List.getElem?_cons_zero, Option.some.injEq] at hp
         subst hp
         first
           | exact cec13_sphere _ h
           | exact cec13_ellips _ h
           | exact cec13_bentCigar _ h
           | exact cec13_discus _ h
           | exact cec13_difPowers _ h
           | exact cec13_rosenbrock _ h
           | exact cec13_schafferF7 _ h
           | exact cec13_ackley _ h
           | exact cec13_weierstrass _ h
           | exact cec13_griewank _ h
           | exact cec13_rastrigin _ h
           | exact cec13_stepRastrigin _ h
           | exact cec13_katsuura _ h
           | exact cec13_biRastrigin _ h
           | exact cec13_grieRosen _ h
           | exact cec13_escaffer6 _ h)

end

theorem cec13_ready {md : Nat → List ℝ} {sd : List ℝ} {id dim : Nat} {c : Ctx} {x : List ℝ} (h : CecReady md sd id dim c x) :
    CecFit c 0 0 x ∧ c.nx = dim ∧ c.os = sd := by
  obtain ⟨hd, -, -, rfl⟩ := cec13_construct h.made
  have := cec13_fit0 (c := ⟨dim, sd, md dim⟩) (cec13_dims hd) h.point.ge h.shifts h.mats
  rw [Nat.zero_mul, Nat.zero_mul] at this
  exact ⟨this, rfl, rfl⟩

theorem cec13_atShift {md : Nat → List ℝ} {sd : List ℝ} {id dim : Nat} {c : Ctx} {x : List ℝ} (h : CecReady md sd id dim c x)
    (hs : x = sd.take dim) : CecAt c 0 x := by
  obtain ⟨-, e1, e2⟩ := cec13_ready h
  intro i hi
  rw [e1] at hi
  unfold entry
  rw [e2, hs, List.getD_eq_getElem?_getD, List.getD_eq_getElem?_getD, List.getElem?_take_of_lt hi, Nat.zero_add]

/-- C151: no point is below the stated optimum, and the shift attains it; all the problems but Schwefel's function and the compositions -/
theorem C151_minimum {md : Nat → List ℝ} {sd : List ℝ} {id dim : Nat} {c : Ctx} {x : List ℝ} (h : CecReady md sd id dim c x) (hid : id ≤ 20)
    (h14 : id ≠ 14) (h15 : id ≠ 15) :
    (∃ v, Cec13.fitness id c x = .ok [v] ∧ c13Best id ≤ v) ∧ (x = sd.take dim → Cec13.fitness id c x = .ok [c13Best id]) := by
  obtain ⟨-, h1, h2, -⟩ := cec13_construct h.made
  obtain ⟨hf, -, -⟩ := cec13_ready h
  obtain ⟨p, hp⟩ : ∃ p, basics[id - 1]? = some p := ⟨_, List.getElem?_eq_getElem (by simp [basics]; omega)⟩
  obtain ⟨v, ev, v1, v2⟩ := cec13_run (id := id) (k := id - 1) (by omega) hp (cec13_floor0 (by omega) (by omega) (by omega) hp hf)
  rw [cec13_biases h1 h2] at ev
  refine ⟨⟨_, ev, by linarith⟩, fun hs => ?_⟩
  rw [ev, show v = 0 by linarith [v2 (cec13_atShift h hs)], zero_add]

/-- C151: Schwefel's function, up to the digits of its constants -/
theorem C151_schwefel {md : Nat → List ℝ} {sd : List ℝ} {id dim : Nat} {c : Ctx} {x : List ℝ} (h : CecReady md sd id dim c x)
    (hid : id = 14 ∨ id = 15) :
    ∃ v, Cec13.fitness id c x = .ok [v] ∧ c13Best id - 0.000002 * dim ≤ v ∧ (x = sd.take dim → v ≤ c13Best id + 0.000002 * dim) := by
  obtain ⟨-, h1, h2, -⟩ := cec13_construct h.made
  obtain ⟨hf, hn, -⟩ := cec13_ready h
  obtain ⟨v, ev, v1, v2⟩ : ∃ v, Cec13.fitness id c x = .ok [v + entry biases (id - 1)] ∧ -(0.000002 * (c.nx : ℝ)) ≤ v ∧
      (CecAt c 0 x → v ≤ 0.000002 * c.nx) := by
    rcases hid with rfl | rfl
    · exact cec13_run (k := 13) rfl (p := (schwefel, false)) rfl (cec13_schwefel _ hf)
    · exact cec13_run (k := 14) rfl (p := (schwefel, true)) rfl (cec13_schwefel _ hf)
  rw [cec13_biases h1 h2] at ev
  rw [hn] at v1 v2
  exact ⟨_, ev, by linarith, fun hs => by linarith [v2 (cec13_atShift h hs)]⟩

/-- C151: no point of a composition is below the stated optimum, up to the digits of the constants of Schwefel's function -/
theorem C151_composition {md : Nat → List ℝ} {sd : List ℝ} {id dim : Nat} {c : Ctx} {x : List ℝ} (h : CecReady md sd id dim c x) (hid : 21 ≤ id) :
    ∃ v, Cec13.fitness id c x = .ok [v] ∧ c13Best id - 0.000005 * dim ≤ v := by
  obtain ⟨hd, h1, h2, rfl⟩ := cec13_construct h.made
  obtain ⟨k, rfl⟩ : ∃ k, id = k + 20 + 1 := ⟨id - 21, by omega⟩
  obtain ⟨q, hq⟩ : ∃ q, comps[k]? = some q := ⟨_, List.getElem?_eq_getElem (by simp [comps]; omega)⟩
  have hn : basics[k + 20]? = none := List.getElem?_eq_none (by simp [basics])
  obtain ⟨v, ev, hv⟩ := cec13_comp (c := ⟨dim, sd, md dim⟩) (cec13_dims hd) h.point.ge h.shifts h.mats (List.mem_of_getElem? hq)
  have hb := cec13_biases h1 h2
  rw [Nat.add_sub_cancel] at hb
  refine ⟨v + c13Best (k + 20 + 1), by simp only [Cec13.fitness, hn, Nat.add_sub_cancel, hq, ev, Outcome.bind_ok, hb], ?_⟩
  simp only at hv
  linarith

/-- the hypotheses can be met: problem 8 in two dimensions, with a shift and matrices that are not the identity -/
example : CecReady cec13Quarter [3, 4, 0, 0, 0, 0, 0, 0, 0, 0] 8 2 ⟨2, [3, 4, 0, 0, 0, 0, 0, 0, 0, 0], cec13Quarter 2⟩ [3, 4] :=
  ⟨rfl, by simp, by simp [cec13Quarter], rfl⟩

example : Cec13.fitness 8 ⟨2, [3, 4, 0, 0, 0, 0, 0, 0, 0, 0], cec13Quarter 2⟩ [3, 4] = .ok [-700] := by
  have h : CecReady cec13Quarter [3, 4, 0, 0, 0, 0, 0, 0, 0, 0] 8 2 ⟨2, [3, 4, 0, 0, 0, 0, 0, 0, 0, 0], cec13Quarter 2⟩ [3, 4] :=
    ⟨rfl, by simp, by simp [cec13Quarter], rfl⟩
  rw [(C151_minimum h (by norm_num) (by norm_num) (by norm_num)).2 rfl]
  norm_num [c13Best]

example : CecReady cec13Quarter (List.replicate 10 0) 21 2 ⟨2, List.replicate 10 0, cec13Quarter 2⟩ [1, 2] :=
  ⟨rfl, by simp, by simp [cec13Quarter], rfl⟩

end Verif.Props
