import Verif.Props.Cec2009Front
import Verif.Spec.Cec2009C

/-!
# cec2009: the constrained problems are those of the report
-/

set_option autoImplicit false

namespace Verif.Props

open Verif Verif.Cec09 Verif.Analytic Verif.Spec

theorem cec9Sgn (t : ℝ) : sgn t * |t| = t := by
  rw [sgn]
  by_cases h : t > 0
  · rw [if_pos h, abs_of_pos h, one_mul]
  · rw [if_neg h, abs_of_nonpos (not_lt.mp h)]; ring

theorem cec9Root (v : ℝ) : sgnRoot v = cecRoot v := by
  rw [sgnRoot, cecRoot, sgn]
  rcases lt_trichotomy v 0 with h | h | h
  · rw [if_neg (by linarith), Real.sign_of_neg h]
  · rw [h]; simp
  · rw [if_pos h, Real.sign_of_pos h]

theorem cec9Two (y : ℝ) : hTwo y = cecTwo y := by
  rw [hTwo, cecTwo, show (1.5 - 0.75 * Real.sqrt 2 : ℝ) = 3 / 2 * (1 - Real.sqrt 2 / 2) by ring, show (0.125 : ℝ) = 1 / 8 by norm_num, pow_two]

theorem cec9CF1 {dim : Nat} {x : List ℝ} (hx : x.length = dim) (hd : 3 ≤ dim) : CF1 dim x = .ok (cfFit dim (oneBased x) 1) := by
  obtain ⟨s, hs, h1, h2, -, -, c1, c2⟩ := cec9Loop2 (dim := dim) (by omega) (step := fun j => do
      let y ← yPow dim x j
      .ok (if j % 2 = 1 then 1 else 2, y * y, 1)) (fun j => cecP dim (oneBased x) j ^ 2) (fun _ => 1)
    (fun j h1 h2 => by
      rw [cec9YPow hx (by omega) h2, pow_two, par2]
      simp only [Outcome.bind_ok]
      by_cases hj : j % 2 = 0
      · rw [if_pos hj, if_neg (by omega)]
      · rw [if_neg hj, if_pos (by omega)])
  rw [CF1, hs, cec9Get0 hx (by omega)]
  simp only [Outcome.bind_ok]
  rw [if_neg (by omega), h1, h2, c1, c2, cec9Over (cec9Odd hd), cec9Over (cec9Even hd), cec9M, cec9M]
  simp only [cfFit, cfObj, cfCon, from2, List.map_cons, List.map_nil, List.getD_cons_zero, List.getD_cons_succ, Option.map_some,
    List.cons_append, List.nil_append]
  congr 5
  change some (-_) = _
  congr 2
  ring

theorem cec9CF2 {dim : Nat} {x : List ℝ} (hx : x.length = dim) (hd : 3 ≤ dim) : CF2 dim x = .ok (cfFit dim (oneBased x) 2) := by
  obtain ⟨s, hs, h1, h2, -, -, c1, c2⟩ := cec9Loop2 (dim := dim) (by omega) (step := fun j => do
    let xj ← Outcome.get x (j - 1)
    let x0 ← Outcome.get x 0
    if j % 2 = 1 then
      let y := xj - Real.sin (angle dim x0 j)
      .ok (1, y * y, 1)
    else
      let y := xj - Real.cos (angle dim x0 j)
      .ok (2, y * y, 1)) (fun j => cecSC dim (oneBased x) j ^ 2) (fun _ => 1)
    (fun j h1 h2 => by
      rw [get_at0 (by omega), cec9Get0 hx (by omega)]
      simp only [Outcome.bind_ok]
      have e : at0 x (j - 1) = oneBased x j := rfl
      by_cases hj : j % 2 = 1
      · rw [if_pos hj, par2, if_neg (by omega), cecSC, if_pos hj, e, angle, pow_two]
      · rw [if_neg hj, par2, if_pos (by omega), cecSC, if_neg hj, e, angle, pow_two])
  rw [CF2, hs, cec9Get0 hx (by omega)]
  simp only [Outcome.bind_ok]
  rw [h1, h2, c1, c2, cec9Over (cec9Odd hd), cec9Over (cec9Even hd), cec9M, cec9M]
  simp only [cfFit, cfObj, cfCon, from2, List.map_cons, List.map_nil, List.getD_cons_zero, List.getD_cons_succ, Option.map_some,
    List.cons_append, List.nil_append]
  congr 5
  change some (-_) = _
  rw [cec9Sgn, one_mul]

theorem cec9CF3 {dim : Nat} {x : List ℝ} (hx : x.length = dim) (hd : 3 ≤ dim) : CF3 dim x = .ok (cfFit dim (oneBased x) 3) := by
  obtain ⟨s, hs, h1, h2, p1, p2, c1, c2⟩ := cec9Sq hx (by omega)
  rw [CF3, hs, cec9Get0 hx (by omega)]
  simp only [Outcome.bind_ok]
  rw [h1, h2, p1, p2, c1, c2, cec9Over (cec9Odd hd), cec9Over (cec9Even hd), cec9P, cec9P]
  simp only [cfFit, cfObj, cfCon, from2, List.map_cons, List.map_nil, List.getD_cons_zero, List.getD_cons_succ, Option.map_some,
    List.cons_append, List.nil_append, ← pow_two, one_mul]
  rfl

theorem cec9Ang (X : ℝ) (n : Nat) (k : ℝ) : 6 * X * Real.pi + k * Real.pi / n = 6 * Real.pi * X + k * Real.pi / n := by ring

theorem cec9CF4 {dim : Nat} {x : List ℝ} (hx : x.length = dim) (hd : 2 ≤ dim) : CF4 dim x = .ok (cfFit dim (oneBased x) 4) := by
  obtain ⟨s, hs, h1, h2, -, -, -, -⟩ := cec9Loop2 (dim := dim) (by omega) (step := fun j => do
    let y ← ySin dim x j
    if j % 2 = 1 then .ok (1, y * y, 1)
    else if j = 2 then .ok (2, hTwo y, 1)
    else .ok (2, y * y, 1)) (fun j => if j = 2 then cecTwo (cecY dim (oneBased x) j) else cecY dim (oneBased x) j ^ 2) (fun _ => 1)
    (fun j h1 h2 => by
      rw [cec9YSin hx (by omega) h2]
      simp only [Outcome.bind_ok, cec9Two, pow_two]
      by_cases hj : j % 2 = 1
      · rw [if_pos hj, par2, if_neg (by omega), if_neg (by omega)]
      · have hp : par2 j = 2 := by rw [par2, if_pos (by omega)]
        rw [if_neg hj, hp]
        by_cases h2 : j = 2
        · rw [if_pos h2, if_pos h2]
        · rw [if_neg h2, if_neg h2])
  have e1 : ∑ j ∈ cecOdd dim, (if j = 2 then cecTwo (cecY dim (oneBased x) j) else cecY dim (oneBased x) j ^ 2)
      = ∑ j ∈ cecOdd dim, cecY dim (oneBased x) j ^ 2 :=
    Finset.sum_congr rfl (fun j hj => by rw [if_neg]; rw [cecOdd, Finset.mem_filter, Finset.mem_Icc] at hj; omega)
  rw [CF4, hs, cec9Get0 hx (by omega), cec9Get1 hx (by omega)]
  simp only [Outcome.bind_ok]
  rw [h1, h2, e1, cec9Sgn, cec9Ang, show (0.5 : ℝ) = 1 / 2 by norm_num, show (0.25 : ℝ) = 1 / 4 by norm_num]
  rfl

theorem cec9CF5 {dim : Nat} {x : List ℝ} (hx : x.length = dim) (hd : 2 ≤ dim) : CF5 dim x = .ok (cfFit dim (oneBased x) 5) := by
  have e8 : (0.8 : ℝ) = 8 / 10 := by norm_num
  obtain ⟨s, hs, h1, h2, -, -, -, -⟩ := cec9Loop2 (dim := dim) (by omega) (step := fun j => do
    let xj ← Outcome.get x (j - 1)
    let x0 ← Outcome.get x 0
    if j % 2 = 1 then
      let y := xj - 0.8 * x0 * Real.cos (angle dim x0 j)
      .ok (1, hRast y, 1)
    else
      let y := xj - 0.8 * x0 * Real.sin (angle dim x0 j)
      if j = 2 then .ok (2, hTwo y, 1)
      else .ok (2, hRast y, 1))
    (fun j => if j = 2 then cecTwo (cecCS dim (8 / 10 * oneBased x 1) (oneBased x) j) else cecH (cecCS dim (8 / 10 * oneBased x 1) (oneBased x) j))
    (fun _ => 1)
    (fun j h1 h2 => by
      rw [get_at0 (by omega), cec9Get0 hx (by omega)]
      simp only [Outcome.bind_ok, cec9Two, cec9HRast, e8]
      have e : at0 x (j - 1) = oneBased x j := rfl
      by_cases hj : j % 2 = 1
      · rw [if_pos hj, par2, if_neg (by omega), if_neg (by omega), cecCS, if_pos hj, e, angle]
      · have hp : par2 j = 2 := by rw [par2, if_pos (by omega)]
        rw [if_neg hj, hp]
        simp only [cecCS]
        rw [if_neg hj, e, angle]
        by_cases h2 : j = 2
        · rw [if_pos h2, if_pos h2]
        · rw [if_neg h2, if_neg h2])
  have e1 : ∑ j ∈ cecOdd dim, (if j = 2 then cecTwo (cecCS dim (8 / 10 * oneBased x 1) (oneBased x) j)
      else cecH (cecCS dim (8 / 10 * oneBased x 1) (oneBased x) j)) = ∑ j ∈ cecOdd dim, cecH (cecCS dim (8 / 10 * oneBased x 1) (oneBased x) j) :=
    Finset.sum_congr rfl (fun j hj => by rw [if_neg]; rw [cecOdd, Finset.mem_filter, Finset.mem_Icc] at hj; omega)
  rw [CF5, hs, cec9Get0 hx (by omega), cec9Get1 hx (by omega)]
  simp only [Outcome.bind_ok]
  rw [h1, h2, e1, cec9Ang, show (0.5 : ℝ) = 1 / 2 by norm_num, show (0.25 : ℝ) = 1 / 4 by norm_num, e8]
  rfl

theorem cec9CF6 {dim : Nat} {x : List ℝ} (hx : x.length = dim) (hd : 4 ≤ dim) : CF6 dim x = .ok (cfFit dim (oneBased x) 6) := by
  have e8 : (0.8 : ℝ) = 8 / 10 := by norm_num
  obtain ⟨s, hs, h1, h2, -, -, -, -⟩ := cec9Loop2 (dim := dim) (by omega) (step := fun j => do
    let xj ← Outcome.get x (j - 1)
    let x0 ← Outcome.get x 0
    if j % 2 = 1 then
      let y := xj - 0.8 * x0 * Real.cos (angle dim x0 j)
      .ok (1, y * y, 1)
    else
      let y := xj - 0.8 * x0 * Real.sin (angle dim x0 j)
      .ok (2, y * y, 1)) (fun j => cecCS dim (8 / 10 * oneBased x 1) (oneBased x) j ^ 2) (fun _ => 1)
    (fun j h1 h2 => by
      rw [get_at0 (by omega), cec9Get0 hx (by omega)]
      simp only [Outcome.bind_ok, e8, pow_two]
      have e : at0 x (j - 1) = oneBased x j := rfl
      by_cases hj : j % 2 = 1
      · rw [if_pos hj, par2, if_neg (by omega), cecCS, if_pos hj, e, angle]
      · rw [if_neg hj, par2, if_pos (by omega), cecCS, if_neg hj, e, angle])
  rw [CF6, hs, cec9Get0 hx (by omega), cec9Get1 hx (by omega), cec9Get3 hx (by omega)]
  simp only [Outcome.bind_ok]
  rw [h1, h2, cec9Ang, cec9Ang, cec9Root, cec9Root, show (0.5 : ℝ) = 1 / 2 by norm_num, show (0.25 : ℝ) = 1 / 4 by norm_num, e8, ← pow_two]
  rfl

theorem cec9CF7 {dim : Nat} {x : List ℝ} (hx : x.length = dim) (hd : 4 ≤ dim) : CF7 dim x = .ok (cfFit dim (oneBased x) 7) := by
  obtain ⟨s, hs, h1, h2, -, -, -, -⟩ := cec9Loop2 (dim := dim) (by omega) (step := fun j => do
    let xj ← Outcome.get x (j - 1)
    let x0 ← Outcome.get x 0
    if j % 2 = 1 then
      let y := xj - Real.cos (angle dim x0 j)
      .ok (1, hRast y, 1)
    else
      let y := xj - Real.sin (angle dim x0 j)
      if j = 2 ∨ j = 4 then .ok (2, y * y, 1)
      else .ok (2, hRast y, 1))
    (fun j => if j = 2 ∨ j = 4 then cecCS dim 1 (oneBased x) j ^ 2 else cecH (cecCS dim 1 (oneBased x) j)) (fun _ => 1)
    (fun j h1 h2 => by
      rw [get_at0 (by omega), cec9Get0 hx (by omega)]
      simp only [Outcome.bind_ok, cec9HRast, pow_two]
      have e : at0 x (j - 1) = oneBased x j := rfl
      by_cases hj : j % 2 = 1
      · rw [if_pos hj, par2, if_neg (by omega), if_neg (by omega), cecCS, if_pos hj, e, angle, one_mul]
      · have hp : par2 j = 2 := by rw [par2, if_pos (by omega)]
        rw [if_neg hj, hp]
        simp only [cecCS]
        rw [if_neg hj, e, angle, one_mul]
        by_cases h2 : j = 2 ∨ j = 4
        · rw [if_pos h2, if_pos h2]
        · rw [if_neg h2, if_neg h2])
  have e1 : ∑ j ∈ cecOdd dim, (if j = 2 ∨ j = 4 then cecCS dim 1 (oneBased x) j ^ 2 else cecH (cecCS dim 1 (oneBased x) j))
      = ∑ j ∈ cecOdd dim, cecH (cecCS dim 1 (oneBased x) j) :=
    Finset.sum_congr rfl (fun j hj => by rw [if_neg]; rw [cecOdd, Finset.mem_filter, Finset.mem_Icc] at hj; omega)
  have e2 : cecCS dim 1 (oneBased x) 2 = oneBased x 2 - Real.sin (6 * Real.pi * oneBased x 1 + 2 * Real.pi / dim) := by
    rw [cecCS, if_neg (by omega), one_mul]; norm_num
  have e4 : cecCS dim 1 (oneBased x) 4 = oneBased x 4 - Real.sin (6 * Real.pi * oneBased x 1 + 4 * Real.pi / dim) := by
    rw [cecCS, if_neg (by omega), one_mul]; norm_num
  rw [CF7, hs, cec9Get0 hx (by omega), cec9Get1 hx (by omega), cec9Get3 hx (by omega)]
  simp only [Outcome.bind_ok]
  rw [h1, h2, e1, cec9Ang, cec9Ang, cec9Root, cec9Root, show (0.5 : ℝ) = 1 / 2 by norm_num, show (0.25 : ℝ) = 1 / 4 by norm_num, ← pow_two, ← e2, ← e4]
  rfl

theorem cec9From3 (a b c k : ℝ) (wave w : ℝ → ℝ) (hw : ∀ v, wave v = k * w v) :
    from3 ([a, b, c].map some) wave = [a, b, c].map some ++ [(cecSphereCon k w a b c).map (fun g => -g)] := by
  simp only [from3, List.map_cons, List.map_nil, cecSphereCon]
  by_cases h : c ^ 2 = 1
  · rw [if_pos h, if_pos (by rw [← pow_two, h, sub_self])]; rfl
  · rw [if_neg h, if_neg (by rw [← pow_two]; intro h'; exact h (by linarith)), hw]
    simp only [← pow_two, Option.map_some]

theorem cec9CF8 {dim : Nat} {x : List ℝ} (hx : x.length = dim) (hd : 5 ≤ dim) : CF8 dim x = .ok (cfFit dim (oneBased x) 8) := by
  rw [CF8, cec9UF8 hx hd]
  simp only [Outcome.bind_ok, ufObj, cecSphere]
  rw [cec9From3 _ _ _ 4 _ abs (fun v => rfl)]
  rfl

theorem cec9CF9 {dim : Nat} {x : List ℝ} (hx : x.length = dim) (hd : 5 ≤ dim) : CF9 dim x = .ok (cfFit dim (oneBased x) 9) := by
  rw [CF9, cec9UF8 hx hd]
  simp only [Outcome.bind_ok, ufObj, cecSphere]
  rw [cec9From3 _ _ _ 3 (fun v => 3 * v) id (fun v => rfl)]
  rfl

theorem cec9CF10 {dim : Nat} {x : List ℝ} (hx : x.length = dim) (hd : 5 ≤ dim) : CF10 dim x = .ok (cfFit dim (oneBased x) 10) := by
  rw [CF10, cec9UF10 hx hd]
  simp only [Outcome.bind_ok, ufObj, cecSphere]
  rw [cec9From3 _ _ _ 1 (fun v => 1 * v) id (fun v => rfl)]
  rfl

/-- the smallest dimension for which CF`i` is defined -/
def cecLeast (i : Nat) : Nat := if i ≤ 3 then 3 else if i ≤ 5 then 2 else if i ≤ 7 then 4 else 5

/-- C147: objectives and constraints of CF1-CF10 are those of the report -/
theorem C147_cf {i dim : Nat} (hi : 1 ≤ i) (hi' : i ≤ 10) (hd : cecLeast i ≤ dim) {x : List ℝ} (hb : CecWithin (Cec09.bounds ⟨i, true, dim⟩) x) :
    Cec09.fitness ⟨i, true, dim⟩ x = .ok (cfFit dim (oneBased x) i) := by
  have hx : x.length = dim := ((C144_boundsCF hi hi' (by
    refine le_trans ?_ hd
    rw [cecFree, cecLeast]; split_ifs <;> omega) x).mp hb).1
  rcases cec9Id hi hi' with rfl | rfl | rfl | rfl | rfl | rfl | rfl | rfl | rfl | rfl
  · exact cec9CF1 hx hd
  · exact cec9CF2 hx hd
  · exact cec9CF3 hx hd
  · exact cec9CF4 hx hd
  · exact cec9CF5 hx hd
  · exact cec9CF6 hx hd
  · exact cec9CF7 hx hd
  · exact cec9CF8 hx hd
  · exact cec9CF9 hx hd
  · exact cec9CF10 hx hd

/-- C147: for CF4 and CF5 with dimension 1 and for CF6 and CF7 with dimensions 1, 2, 3, all accepted by the constructor, `fitness` reads past the end of
the decision vector -/
theorem C147_ub {i dim : Nat} (hi : 4 ≤ i) (hi' : i ≤ 7) (h1 : 1 ≤ dim) (hd : dim < cecLeast i) {x : List ℝ} (hx : x.length = dim) :
    Cec09.construct i true dim = .ok ⟨i, true, dim⟩ ∧ Cec09.fitness ⟨i, true, dim⟩ x = .ub := by
  refine ⟨(C144_ctor i true dim).2 (by omega) (by omega) h1, ?_⟩
  have g0 := cec9Get0 hx h1
  have gj : ∀ j, 2 ≤ j → j ≤ dim → Outcome.get x (j - 1) = .ok (oneBased x j) := fun j a b => get_at0 (by omega)
  have ub3 : dim < 4 → Outcome.get x 3 = .ub := fun h => by
    rw [Outcome.get, List.getElem?_eq_none (by omega)]
  have ub1 : dim < 2 → Outcome.get x 1 = .ub := fun h => by
    rw [Outcome.get, List.getElem?_eq_none (by omega)]
  have key : ∀ step : Nat → Outcome (Nat × ℝ × ℝ), (∀ j, 2 ≤ j → j ≤ dim → ∃ h p, step j = .ok (par2 j, h, p)) → ∃ s, loop 2 dim step = .ok s := by
    intro step h
    choose! a b hab using h
    obtain ⟨s, hs, -⟩ := cec9Loop2 h1 a b hab
    exact ⟨s, hs⟩
  have hid : i = 4 ∨ i = 5 ∨ i = 6 ∨ i = 7 := by omega
  rcases hid with rfl | rfl | rfl | rfl
  · have hd : dim < 2 := hd
    obtain ⟨s, hs⟩ := key (fun j => do
      let y ← ySin dim x j
      if j % 2 = 1 then .ok (1, y * y, 1)
      else if j = 2 then .ok (2, hTwo y, 1)
      else .ok (2, y * y, 1)) (fun j a b => by omega)
    show CF4 dim x = .ub
    rw [CF4, hs, g0, ub1 hd]; rfl
  · have hd : dim < 2 := hd
    obtain ⟨s, hs⟩ := key (fun j => do
      let xj ← Outcome.get x (j - 1)
      let x0 ← Outcome.get x 0
      if j % 2 = 1 then
        let y := xj - 0.8 * x0 * Real.cos (angle dim x0 j)
        .ok (1, hRast y, 1)
      else
        let y := xj - 0.8 * x0 * Real.sin (angle dim x0 j)
        if j = 2 then .ok (2, hTwo y, 1)
        else .ok (2, hRast y, 1)) (fun j a b => by omega)
    show CF5 dim x = .ub
    rw [CF5, hs, g0, ub1 hd]; rfl
  · have hd : dim < 4 := hd
    obtain ⟨s, hs⟩ := key (fun j => do
      let xj ← Outcome.get x (j - 1)
      let x0 ← Outcome.get x 0
      if j % 2 = 1 then
        let y := xj - 0.8 * x0 * Real.cos (angle dim x0 j)
        .ok (1, y * y, 1)
      else
        let y := xj - 0.8 * x0 * Real.sin (angle dim x0 j)
        .ok (2, y * y, 1)) (fun j a b => by
          rw [gj j a b, g0]
          simp only [Outcome.bind_ok]
          by_cases hj : j % 2 = 1
          · rw [if_pos hj, par2, if_neg (by omega)]; exact ⟨_, _, rfl⟩
          · rw [if_neg hj, par2, if_pos (by omega)]; exact ⟨_, _, rfl⟩)
    show CF6 dim x = .ub
    rw [CF6, hs, g0, ub3 hd]
    by_cases h2 : dim < 2
    · rw [ub1 h2]; rfl
    · rw [cec9Get1 hx (by omega)]; rfl
  · have hd : dim < 4 := hd
    obtain ⟨s, hs⟩ := key (fun j => do
      let xj ← Outcome.get x (j - 1)
      let x0 ← Outcome.get x 0
      if j % 2 = 1 then
        let y := xj - Real.cos (angle dim x0 j)
        .ok (1, hRast y, 1)
      else
        let y := xj - Real.sin (angle dim x0 j)
        if j = 2 ∨ j = 4 then .ok (2, y * y, 1)
        else .ok (2, hRast y, 1)) (fun j a b => by
          rw [gj j a b, g0]
          simp only [Outcome.bind_ok]
          by_cases hj : j % 2 = 1
          · rw [if_pos hj, par2, if_neg (by omega)]; exact ⟨_, _, rfl⟩
          · have hp : par2 j = 2 := by rw [par2, if_pos (by omega)]
            rw [if_neg hj, hp]
            by_cases h2 : j = 2 ∨ j = 4
            · rw [if_pos h2]; exact ⟨_, _, rfl⟩
            · rw [if_neg h2]; exact ⟨_, _, rfl⟩)
    show CF7 dim x = .ub
    rw [CF7, hs, g0, ub3 hd]
    by_cases h2 : dim < 2
    · rw [ub1 h2]; rfl
    · rw [cec9Get1 hx (by omega)]; rfl

/-- C147: for CF8-CF10 with dimensions 2, 3, 4 the second objective and the constraint are not numbers -/
theorem C147_small3 {i dim : Nat} (hi : 8 ≤ i) (hi' : i ≤ 10) (h1 : 2 ≤ dim) (h2 : dim ≤ 4) {x : List ℝ} (hx : x.length = dim) :
    ∃ f g, Cec09.fitness ⟨i, true, dim⟩ x = .ok [f, none, g, none] := by
  have hid : i = 8 ∨ i = 9 ∨ i = 10 := by omega
  obtain ⟨f, g, h8⟩ := C145_small3 (i := 8) (by omega) (by omega) h1 h2 hx
  obtain ⟨f', g', h10⟩ := C145_small3 (i := 10) (by omega) (by omega) h1 h2 hx
  have k : ∀ (f g : Option ℝ) (w : ℝ → ℝ), from3 [f, none, g] w = [f, none, g, none] := by
    intro f g w; cases f <;> rfl
  rcases hid with rfl | rfl | rfl
  · refine ⟨f, g, ?_⟩
    change UF8 dim x = _ at h8
    show CF8 dim x = _
    rw [CF8, h8]; simp only [Outcome.bind_ok, k]
  · refine ⟨f, g, ?_⟩
    change UF8 dim x = _ at h8
    show CF9 dim x = _
    rw [CF9, h8]; simp only [Outcome.bind_ok, k]
  · refine ⟨f', g', ?_⟩
    change UF10 dim x = _ at h10
    show CF10 dim x = _
    rw [CF10, h10]; simp only [Outcome.bind_ok, k]

/-- C147: for CF1, CF2, CF3 with dimensions 1 and 2 the first objective and the constraint are not numbers -/
theorem C147_small2 {i dim : Nat} (hi : 1 ≤ i) (hi' : i ≤ 3) (h1 : 1 ≤ dim) (h2 : dim ≤ 2) {x : List ℝ} (hx : x.length = dim) :
    ∃ f, Cec09.fitness ⟨i, true, dim⟩ x = .ok [none, f, none] := by
  have hc : (cecOdd dim).card = 0 := by rw [Finset.card_eq_zero, cec9_odd_empty]; omega
  have key : ∀ step : Nat → Outcome (Nat × ℝ × ℝ), (∀ j, 2 ≤ j → j ≤ dim → ∃ h p, step j = .ok (par2 j, h, p)) →
      ∃ s, loop 2 dim step = .ok s ∧ s.c1 = 0 := by
    intro step h
    choose! a b hab using h
    obtain ⟨s, hs, -, -, -, -, c1, -⟩ := cec9Loop2 h1 a b hab
    exact ⟨s, hs, by rw [c1, hc]⟩
  have h0 := cec9Get0 hx h1
  have hid : i = 1 ∨ i = 2 ∨ i = 3 := by omega
  rcases hid with rfl | rfl | rfl
  · obtain ⟨s, hs, hc⟩ := key (fun j => do
      let y ← yPow dim x j
      .ok (if j % 2 = 1 then 1 else 2, y * y, 1)) (fun j a b => by
        rw [cec9YPow hx (by omega) b, par2]
        simp only [Outcome.bind_ok]
        by_cases hj : j % 2 = 0
        · rw [if_pos hj, if_neg (by omega)]; exact ⟨_, _, rfl⟩
        · rw [if_neg hj, if_pos (by omega)]; exact ⟨_, _, rfl⟩)
    show ∃ f, CF1 dim x = .ok [none, f, none]
    rw [CF1, hs, h0]
    simp only [Outcome.bind_ok]
    by_cases hd : dim = 2
    · rw [if_pos hd]; exact ⟨none, rfl⟩
    · rw [if_neg hd, cec9Over0 hc]; exact ⟨_, rfl⟩
  · obtain ⟨s, hs, hc⟩ := key (fun j => do
      let xj ← Outcome.get x (j - 1)
      let x0 ← Outcome.get x 0
      if j % 2 = 1 then
        let y := xj - Real.sin (angle dim x0 j)
        .ok (1, y * y, 1)
      else
        let y := xj - Real.cos (angle dim x0 j)
        .ok (2, y * y, 1)) (fun j a b => by
          rw [get_at0 (by omega), h0]
          simp only [Outcome.bind_ok]
          by_cases hj : j % 2 = 1
          · rw [if_pos hj, par2, if_neg (by omega)]; exact ⟨_, _, rfl⟩
          · rw [if_neg hj, par2, if_pos (by omega)]; exact ⟨_, _, rfl⟩)
    show ∃ f, CF2 dim x = .ok [none, f, none]
    rw [CF2, hs, h0]
    simp only [Outcome.bind_ok]
    rw [cec9Over0 hc]; exact ⟨_, rfl⟩
  · obtain ⟨s, hs, hc⟩ := key (fun j => do
      let y ← ySin dim x j
      .ok (par2 j, y * y, pCos y j)) (fun j a b => by rw [cec9YSin hx (by omega) b]; exact ⟨_, _, rfl⟩)
    show ∃ f, CF3 dim x = .ok [none, f, none]
    rw [CF3, hs, h0]
    simp only [Outcome.bind_ok]
    rw [cec9Over0 hc]; exact ⟨_, rfl⟩

end Verif.Props
