import Verif.Proof.Cec2009

/-!
# cec2009: the problems are those of the report
-/

set_option autoImplicit false

namespace Verif.Props

open Verif Verif.Cec09 Verif.Analytic Verif.Spec

theorem cec9Get0 {dim : Nat} {x : List ℝ} (hx : x.length = dim) (hd : 1 ≤ dim) : Outcome.get x 0 = .ok (oneBased x 1) := get_at0 (by omega)
theorem cec9Get1 {dim : Nat} {x : List ℝ} (hx : x.length = dim) (hd : 2 ≤ dim) : Outcome.get x 1 = .ok (oneBased x 2) := get_at0 (by omega)
theorem cec9Get3 {dim : Nat} {x : List ℝ} (hx : x.length = dim) (hd : 4 ≤ dim) : Outcome.get x 3 = .ok (oneBased x 4) := get_at0 (by omega)

theorem cec9Odd {n : Nat} (hn : 3 ≤ n) : (cecOdd n).card ≠ 0 := by rw [Ne, Finset.card_eq_zero, cec9_odd_empty]; omega
theorem cec9Even {n : Nat} (hn : 3 ≤ n) : (cecEven n).card ≠ 0 := by rw [Ne, Finset.card_eq_zero, cec9_even_empty]; omega

theorem cec9Mean (s : Finset Nat) (h : Nat → ℝ) : 2 * ∑ j ∈ s, h j = ∑ j ∈ s, h j * 2 := by rw [mul_comm, Finset.sum_mul]

theorem cec9M (b : ℝ) (s : Finset Nat) (h : Nat → ℝ) : b + (2 * ∑ j ∈ s, h j) / s.card = b + mean2 s h := by rw [mean2]; ring

theorem cec9P (b : ℝ) (s : Finset Nat) (y : Nat → ℝ) : b + (2 * (4 * ∑ j ∈ s, y j * y j - 2 * ∏ j ∈ s, pCos (y j) j + 2)) / s.card = b + multi2 s y := by
  rw [multi2]
  have : ∑ j ∈ s, y j * y j = ∑ j ∈ s, y j ^ 2 := Finset.sum_congr rfl (fun j _ => by ring)
  rw [this]
  have : ∏ j ∈ s, pCos (y j) j = ∏ j ∈ s, Real.cos (20 * y j * Real.pi / Real.sqrt j) := rfl
  rw [this]; ring

theorem cec9Max (h : ℝ) : (if h < 0 then 0 else h) = max 0 h := by
  split
  · rw [max_eq_left]; linarith
  · rw [max_eq_right]; linarith

theorem cec9Sphere (x0 x1 : ℝ) (s : Sums) (h1 : s.c1 ≠ 0) (h2 : s.c2 ≠ 0) (h3 : s.c3 ≠ 0) (X : Nat → ℝ) (e1 : X 1 = x0) (e2 : X 2 = x1) :
    sphere x0 x1 s = (cecSphere X (2 * s.s1 / s.c1) (2 * s.s2 / s.c2) (2 * s.s3 / s.c3)).map some := by
  rw [sphere, over, over, over, if_neg h1, if_neg h2, if_neg h3, cecSphere, e1, e2, show 0.5 * Real.pi * x0 = x0 * Real.pi / 2 by ring,
    show 0.5 * Real.pi * x1 = x1 * Real.pi / 2 by ring]
  rfl

theorem cec9M' (s : Finset Nat) (h : Nat → ℝ) : (2 * ∑ j ∈ s, h j) / s.card = mean2 s h := by rw [mean2]; ring

/-- the sums of squares -/
theorem cec9Sq {dim : Nat} {x : List ℝ} (hx : x.length = dim) (hd : 1 ≤ dim) : ∃ s, loop 2 dim (fun j => do
      let y ← ySin dim x j
      .ok (par2 j, y * y, pCos y j)) = .ok s ∧ s.s1 = ∑ j ∈ cecOdd dim, cecY dim (oneBased x) j * cecY dim (oneBased x) j ∧
      s.s2 = ∑ j ∈ cecEven dim, cecY dim (oneBased x) j * cecY dim (oneBased x) j ∧
      s.p1 = ∏ j ∈ cecOdd dim, pCos (cecY dim (oneBased x) j) j ∧ s.p2 = ∏ j ∈ cecEven dim, pCos (cecY dim (oneBased x) j) j ∧
      s.c1 = (cecOdd dim).card ∧ s.c2 = (cecEven dim).card :=
  cec9Loop2 hd _ _ (fun j h1 h2 => by rw [cec9YSin hx (by omega) h2]; rfl)

theorem cec9UF1 {dim : Nat} {x : List ℝ} (hx : x.length = dim) (hd : 3 ≤ dim) : UF1 dim x = .ok ((ufObj dim (oneBased x) 1).map some) := by
  obtain ⟨s, hs, h1, h2, -, -, c1, c2⟩ := cec9Loop2 (dim := dim) (by omega) (step := fun j => do
      let y ← ySin dim x j
      .ok (par2 j, y * y, 1)) (fun j => cecY dim (oneBased x) j ^ 2) (fun _ => 1)
    (fun j h1 h2 => by rw [cec9YSin hx (by omega) h2, pow_two]; rfl)
  rw [UF1, hs, cec9Get0 hx (by omega)]
  simp only [Outcome.bind_ok]
  rw [h1, h2, c1, c2, cec9Over (cec9Odd hd), cec9Over (cec9Even hd), cec9M, cec9M]
  rfl

theorem cec9UF2 {dim : Nat} {x : List ℝ} (hx : x.length = dim) (hd : 3 ≤ dim) : UF2 dim x = .ok ((ufObj dim (oneBased x) 2).map some) := by
  obtain ⟨s, hs, h1, h2, -, -, c1, c2⟩ := cec9Loop2 (dim := dim) (by omega) (step := fun j => do
    let xj ← Outcome.get x (j - 1)
    let x0 ← Outcome.get x 0
    let w := 0.3 * x0 * (x0 * Real.cos (24 * Real.pi * x0 + 4 * j * Real.pi / dim) + 2)
    if j % 2 = 0 then
      let y := xj - w * Real.sin (angle dim x0 j)
      .ok (2, y * y, 1)
    else
      let y := xj - w * Real.cos (angle dim x0 j)
      .ok (1, y * y, 1)) (fun j => cecQ dim (oneBased x) j ^ 2) (fun _ => 1)
    (fun j h1 h2 => by
      rw [get_at0 (by omega), cec9Get0 hx (by omega)]
      simp only [Outcome.bind_ok]
      have e : at0 x (j - 1) = oneBased x j := rfl
      by_cases hj : j % 2 = 0
      · rw [if_pos hj, par2, if_pos hj, cecQ, if_neg (by omega), e, angle]; congr 3; ring
      · rw [if_neg hj, par2, if_neg hj, cecQ, if_pos (by omega), e, angle]; congr 3; ring)
  rw [UF2, hs, cec9Get0 hx (by omega)]
  simp only [Outcome.bind_ok]
  rw [h1, h2, c1, c2, cec9Over (cec9Odd hd), cec9Over (cec9Even hd), cec9M, cec9M]
  rfl

theorem cec9UF3 {dim : Nat} {x : List ℝ} (hx : x.length = dim) (hd : 3 ≤ dim) : UF3 dim x = .ok ((ufObj dim (oneBased x) 3).map some) := by
  obtain ⟨s, hs, h1, h2, p1, p2, c1, c2⟩ := cec9Loop2 (dim := dim) (by omega) (step := fun j => do
    let y ← yPow dim x j
    .ok (par2 j, y * y, pCos y j)) (fun j => cecP dim (oneBased x) j * cecP dim (oneBased x) j) (fun j => pCos (cecP dim (oneBased x) j) j)
    (fun j h1 h2 => by rw [cec9YPow hx (by omega) h2]; rfl)
  rw [UF3, hs, cec9Get0 hx (by omega)]
  simp only [Outcome.bind_ok]
  rw [if_neg (by omega), h1, h2, p1, p2, c1, c2, cec9Over (cec9Odd hd), cec9Over (cec9Even hd), cec9P, cec9P]
  rfl

theorem cec9UF4 {dim : Nat} {x : List ℝ} (hx : x.length = dim) (hd : 3 ≤ dim) : UF4 dim x = .ok ((ufObj dim (oneBased x) 4).map some) := by
  obtain ⟨s, hs, h1, h2, -, -, c1, c2⟩ := cec9Loop2 (dim := dim) (by omega) (step := fun j => do
    let y ← ySin dim x j
    .ok (par2 j, |y| / (1 + Real.exp (2 * |y|)), 1))
    (fun j => |cecY dim (oneBased x) j| / (1 + Real.exp (2 * |cecY dim (oneBased x) j|))) (fun _ => 1)
    (fun j h1 h2 => by rw [cec9YSin hx (by omega) h2]; rfl)
  rw [UF4, hs, cec9Get0 hx (by omega)]
  simp only [Outcome.bind_ok]
  rw [h1, h2, c1, c2, cec9Over (cec9Odd hd), cec9Over (cec9Even hd), cec9M, cec9M, ← pow_two]
  rfl

theorem cec9HRast (y : ℝ) : hRast y = cecH y := by rw [hRast, cecH]; ring

theorem cec9UF5 {dim : Nat} {x : List ℝ} (hx : x.length = dim) (hd : 3 ≤ dim) : UF5 dim x = .ok ((ufObj dim (oneBased x) 5).map some) := by
  obtain ⟨s, hs, h1, h2, -, -, c1, c2⟩ := cec9Loop2 (dim := dim) (by omega) (step := fun j => do
    let y ← ySin dim x j
    .ok (par2 j, hRast y, 1))
    (fun j => cecH (cecY dim (oneBased x) j)) (fun _ => 1)
    (fun j h1 h2 => by rw [cec9YSin hx (by omega) h2, ← cec9HRast]; rfl)
  rw [UF5, hs, cec9Get0 hx (by omega)]
  simp only [Outcome.bind_ok]
  rw [h1, h2, c1, c2, cec9Over (cec9Odd hd), cec9Over (cec9Even hd), cec9M, cec9M,
    show (0.5 / 10 + 0.1 : ℝ) = 1 / 20 + 1 / 10 by norm_num, show (2 * 10 : ℝ) = 20 by norm_num]
  rfl

theorem cec9UF6 {dim : Nat} {x : List ℝ} (hx : x.length = dim) (hd : 3 ≤ dim) : UF6 dim x = .ok ((ufObj dim (oneBased x) 6).map some) := by
  obtain ⟨s, hs, h1, h2, p1, p2, c1, c2⟩ := cec9Sq hx (by omega)
  rw [UF6, hs, cec9Get0 hx (by omega)]
  simp only [Outcome.bind_ok]
  rw [h1, h2, p1, p2, c1, c2, cec9Over (cec9Odd hd), cec9Over (cec9Even hd), cec9P, cec9P, cec9Max,
    show (0.5 / 2 + 0.1 : ℝ) = 1 / 4 + 1 / 10 by norm_num, show (2 * 2 * Real.pi : ℝ) = 4 * Real.pi by ring]
  rfl

theorem cec9UF7 {dim : Nat} {x : List ℝ} (hx : x.length = dim) (hd : 3 ≤ dim) : UF7 dim x = .ok ((ufObj dim (oneBased x) 7).map some) := by
  obtain ⟨s, hs, h1, h2, -, -, c1, c2⟩ := cec9Loop2 (dim := dim) (by omega) (step := fun j => do
      let y ← ySin dim x j
      .ok (par2 j, y * y, 1)) (fun j => cecY dim (oneBased x) j ^ 2) (fun _ => 1)
    (fun j h1 h2 => by rw [cec9YSin hx (by omega) h2, pow_two]; rfl)
  rw [UF7, hs, cec9Get0 hx (by omega)]
  simp only [Outcome.bind_ok]
  rw [h1, h2, c1, c2, cec9Over (cec9Odd hd), cec9Over (cec9Even hd), cec9M, cec9M, show (0.2 : ℝ) = 1 / 5 by norm_num]
  rfl

theorem cec9UF8 {dim : Nat} {x : List ℝ} (hx : x.length = dim) (hd : 5 ≤ dim) : UF8 dim x = .ok ((ufObj dim (oneBased x) 8).map some) := by
  obtain ⟨s, hs, h1, h2, h3, c1, c2, c3⟩ := cec9Loop3 (dim := dim) (by omega) (step := fun j => do
    let y ← ySin2 dim x j
    .ok (par3 j, y * y, 1)) (fun j => cecZ dim (oneBased x) j ^ 2) (fun _ => 1)
    (fun j h1 h2 => by rw [cec9YSin2 hx (by omega) (by omega) h2, pow_two]; rfl)
  rw [UF8, hs, cec9Get0 hx (by omega), cec9Get1 hx (by omega)]
  simp only [Outcome.bind_ok]
  rw [cec9Sphere _ _ s (by rw [c1]; exact cec9_third_ne hd 1 (by omega)) (by rw [c2]; exact cec9_third_ne hd 2 (by omega))
    (by rw [c3]; exact cec9_third_ne hd 0 (by omega)) (oneBased x) rfl rfl, h1, h2, h3, c1, c2, c3, cec9M', cec9M', cec9M']
  rfl

theorem cec9UF9 {dim : Nat} {x : List ℝ} (hx : x.length = dim) (hd : 5 ≤ dim) : UF9 dim x = .ok ((ufObj dim (oneBased x) 9).map some) := by
  obtain ⟨s, hs, h1, h2, h3, c1, c2, c3⟩ := cec9Loop3 (dim := dim) (by omega) (step := fun j => do
    let y ← ySin2 dim x j
    .ok (par3 j, y * y, 1)) (fun j => cecZ dim (oneBased x) j ^ 2) (fun _ => 1)
    (fun j h1 h2 => by rw [cec9YSin2 hx (by omega) (by omega) h2, pow_two]; rfl)
  rw [UF9, hs, cec9Get0 hx (by omega), cec9Get1 hx (by omega)]
  simp only [Outcome.bind_ok]
  rw [h1, h2, h3, c1, c2, c3, cec9Over (cec9_third_ne hd 1 (by omega)), cec9Over (cec9_third_ne hd 2 (by omega)),
    cec9Over (cec9_third_ne hd 0 (by omega)), cec9M, cec9M, cec9M, cec9Max, show (0.5 : ℝ) = 1 / 2 by norm_num, show (0.1 : ℝ) = 1 / 10 by norm_num]
  have e : ∀ a : ℝ, 1 - 4 * a * a = 1 - 4 * a ^ 2 := fun a => by ring
  rw [e]
  rfl

theorem cec9UF10 {dim : Nat} {x : List ℝ} (hx : x.length = dim) (hd : 5 ≤ dim) : UF10 dim x = .ok ((ufObj dim (oneBased x) 10).map some) := by
  obtain ⟨s, hs, h1, h2, h3, c1, c2, c3⟩ := cec9Loop3 (dim := dim) (by omega) (step := fun j => do
    let y ← ySin2 dim x j
    .ok (par3 j, hRast2 y, 1)) (fun j => 4 * cecZ dim (oneBased x) j ^ 2 - Real.cos (8 * Real.pi * cecZ dim (oneBased x) j) + 1) (fun _ => 1)
    (fun j h1 h2 => by
      rw [cec9YSin2 hx (by omega) (by omega) h2]
      simp only [Outcome.bind_ok, hRast2]
      congr 3; ring)
  rw [UF10, hs, cec9Get0 hx (by omega), cec9Get1 hx (by omega)]
  simp only [Outcome.bind_ok]
  rw [cec9Sphere _ _ s (by rw [c1]; exact cec9_third_ne hd 1 (by omega)) (by rw [c2]; exact cec9_third_ne hd 2 (by omega))
    (by rw [c3]; exact cec9_third_ne hd 0 (by omega)) (oneBased x) rfl rfl, h1, h2, h3, c1, c2, c3, cec9M', cec9M', cec9M']
  rfl

end Verif.Props
