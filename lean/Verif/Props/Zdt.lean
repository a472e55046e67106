import Verif.Proof.Zdt
import Verif.Props.Dtlz

/-!
# C83: the ZDT problems and their convergence metric
-/

set_option autoImplicit false

namespace Verif.Props

open Verif Verif.Analytic Verif.Zdt Finset

/-- C83 (constructor): exactly the documented arguments are accepted. -/
theorem C83_ctor (id param : Nat) :
    ((1 ≤ id ∧ id ≤ 6 ∧ 2 ≤ param) ↔ ∃ p, Zdt.ctor id param = .ok p) ∧
    (∀ p, Zdt.ctor id param = .ok p → p = ⟨id, param⟩) ∧
    ((∃ p, Zdt.ctor id param = .ok p) ∨ Zdt.ctor id param = .throws .invalidArgument) := by
  unfold Zdt.ctor
  split_ifs <;> simp <;> omega

theorem dominates_two {a b c d : ℝ} : DominatesR [a, b] [c, d] ↔ a ≤ c ∧ b ≤ d ∧ (a < c ∨ b < d) := by
  constructor
  · rintro ⟨-, h, i, u, v, hu, hv, huv⟩
    refine ⟨h 0 a c rfl rfl, h 1 b d rfl rfl, ?_⟩
    match i with
    | 0 => cases hu; cases hv; exact .inl huv
    | 1 => cases hu; cases hv; exact .inr huv
    | i + 2 => simp at hu
  · rintro ⟨h1, h2, h3⟩
    refine ⟨rfl, fun i u v hu hv => ?_, ?_⟩
    · match i with
      | 0 => cases hu; cases hv; exact h1
      | 1 => cases hu; cases hv; exact h2
      | i + 2 => simp at hu
    · rcases h3 with h | h
      · exact ⟨0, a, c, rfl, rfl, h⟩
      · exact ⟨1, b, d, rfl, rfl, h⟩

/-- If the second objective grows with the distance and falls with the first objective along distance 0, then distance 0 means optimal. -/
theorem zdt_zero_optimal {fit : List ℝ → Outcome (List ℝ)} {b : List ℝ × List ℝ} {F P : List ℝ → ℝ} {H : ℝ → ℝ → ℝ} {A : ℝ → Prop}
    (hf : ∀ x, BetweenR b x → A (F x) ∧ 0 ≤ P x ∧ fit x = .ok [F x, H (F x) (P x)])
    (hm : ∀ a g, A a → 0 < g → H a 0 < H a g) (ha : ∀ a c, A a → A c → a < c → H c 0 < H a 0)
    {x : List ℝ} (hx : BetweenR b x) (h0 : P x = 0) : ParetoOptimalR fit b x := by
  obtain ⟨a1, a2, a3⟩ := hf x hx
  refine ⟨hx, _, a3, fun y v hy hv hd => ?_⟩
  obtain ⟨b1, b2, b3⟩ := hf y hy
  rw [b3] at hv; cases hv
  rw [h0] at hd
  obtain ⟨d1, d2, d3⟩ := dominates_two.mp hd
  have key : H (F y) 0 ≤ H (F y) (P y) := by
    rcases b2.eq_or_lt with e | e
    · rw [← e]
    · exact (hm _ _ b1 e).le
  rcases d1.eq_or_lt with e | e
  · rw [e] at d3 d2 key
    rcases d3 with h | h
    · exact lt_irrefl _ h
    · linarith
  · have := ha _ _ b1 a1 e
    linarith

/-- If the second objective grows with the distance and every point has one of distance 0 with the same first objective, then optimal points
have distance 0. -/
theorem zdt_optimal_zero {fit : List ℝ → Outcome (List ℝ)} {b : List ℝ × List ℝ} {F P : List ℝ → ℝ} {H : ℝ → ℝ → ℝ} {A : ℝ → Prop}
    (hf : ∀ x, BetweenR b x → A (F x) ∧ 0 ≤ P x ∧ fit x = .ok [F x, H (F x) (P x)])
    (hm : ∀ a g, A a → 0 < g → H a 0 < H a g)
    (hp : ∀ x, BetweenR b x → ∃ y, BetweenR b y ∧ F y = F x ∧ P y = 0)
    {x : List ℝ} (hx : ParetoOptimalR fit b x) : P x = 0 := by
  obtain ⟨hb, u, hu, hn⟩ := hx
  obtain ⟨a1, a2, a3⟩ := hf x hb
  rw [a3] at hu; cases hu
  rcases a2.eq_or_lt with e | e
  · exact e.symm
  · obtain ⟨y, hy, e1, e2⟩ := hp x hb
    obtain ⟨-, -, b3⟩ := hf y hy
    refine absurd (dominates_two.mpr ⟨e1.le, ?_, .inr ?_⟩) (hn y _ hy b3)
    · rw [e1, e2]; exact (hm _ _ a1 e).le
    · rw [e1, e2]; exact hm _ _ a1 e

/-- the shape of the second objective of ZDT1 and ZDT4 -/
theorem sqrt_shape {a g : ℝ} (h0 : 0 ≤ a) (h1 : a ≤ 1) (hg : 0 < g) :
    (1 + 0) * (1 - Real.sqrt (a / (1 + 0))) < (1 + g) * (1 - Real.sqrt (a / (1 + g))) := by
  have hs : Real.sqrt (a / (1 + g)) ≤ Real.sqrt a := Real.sqrt_le_sqrt (div_le_self h0 (by linarith))
  have hq : (1 + g) * Real.sqrt (a / (1 + g)) = Real.sqrt ((1 + g) * a) := by
    rw [Real.sqrt_div h0, Real.sqrt_mul (by linarith : (0 : ℝ) ≤ 1 + g)]
    have : Real.sqrt (1 + g) * Real.sqrt (1 + g) = 1 + g := Real.mul_self_sqrt (by linarith)
    have h2 : 0 < Real.sqrt (1 + g) := Real.sqrt_pos.mpr (by linarith)
    rw [mul_div_assoc', div_eq_iff h2.ne']
    linear_combination (-Real.sqrt a) * this
  have h3 : (1 + g) * (1 - Real.sqrt (a / (1 + g))) = 1 + g - Real.sqrt ((1 + g) * a) := by rw [mul_sub, hq]; ring
  rw [h3]
  simp only [add_zero, one_mul, div_one]
  rw [Real.sqrt_mul (by linarith : (0 : ℝ) ≤ 1 + g)]
  have h4 : Real.sqrt a ≤ 1 := by rw [← Real.sqrt_one]; exact Real.sqrt_le_sqrt h1
  have h5 : 0 ≤ Real.sqrt a := Real.sqrt_nonneg _
  have h6 : Real.sqrt (1 + g) * Real.sqrt (1 + g) = 1 + g := Real.mul_self_sqrt (by linarith)
  have h7 : 1 < Real.sqrt (1 + g) := by rw [Real.lt_sqrt] <;> linarith
  nlinarith

/-- the shape of the second objective of ZDT2 and ZDT6 -/
theorem square_shape {a g : ℝ} (hg : 0 < g) :
    (1 + 0) * (1 - a / (1 + 0) * (a / (1 + 0))) < (1 + g) * (1 - a / (1 + g) * (a / (1 + g))) := by
  have h1 : (0 : ℝ) < 1 + g := by linarith
  have : (1 + g) * (1 - a / (1 + g) * (a / (1 + g))) = 1 + g - a * a / (1 + g) := by field_simp
  rw [this]
  have h2 : a * a / (1 + g) ≤ a * a := div_le_self (mul_self_nonneg a) (by linarith)
  simp only [add_zero, one_mul, div_one]
  linarith

theorem square_anti {a c : ℝ} (h0 : 0 ≤ a) (h : a < c) :
    (1 + 0) * (1 - c / (1 + 0) * (c / (1 + 0))) < (1 + 0) * (1 - a / (1 + 0) * (a / (1 + 0))) := by
  simp only [add_zero, one_mul, div_one]
  nlinarith

/-- the shape of the second objective of ZDT3 -/
theorem sin_shape {a g : ℝ} (s : ℝ) (h0 : 0 ≤ a) (h1 : a ≤ 1) (hg : 0 < g) :
    (1 + 0) * (1 - Real.sqrt (a / (1 + 0)) - a / (1 + 0) * s) < (1 + g) * (1 - Real.sqrt (a / (1 + g)) - a / (1 + g) * s) := by
  have := sqrt_shape h0 h1 hg
  have h2 : (1 + g) * (1 - Real.sqrt (a / (1 + g)) - a / (1 + g) * s) = (1 + g) * (1 - Real.sqrt (a / (1 + g))) - a * s := by
    have : (1 + g) ≠ 0 := by linarith
    field_simp
  rw [h2]
  simp only [add_zero, one_mul, div_one] at this ⊢
  linarith

theorem tail_nonneg {x : List ℝ} (h : ∀ i, i < x.length → 0 ≤ at0 x i) : 0 ≤ tailSum x :=
  sum_nonneg (fun i hi => h _ (by have := mem_range.mp hi; omega))

theorem tail4_nonneg (x : List ℝ) : 0 ≤ tailSum4 x :=
  sum_nonneg (fun i _ => by
    have := Real.cos_le_one (4 * Real.pi * at0 x (i + 1))
    nlinarith [mul_self_nonneg (at0 x (i + 1))])

/-- the box of ZDT1, 2, 3 and 6 -/
theorem between_zdt {id param : Nat} (h : id = 1 ∨ id = 2 ∨ id = 3 ∨ id = 6) {x : List ℝ} :
    BetweenR (Zdt.bounds ⟨id, param⟩) x ↔ x.length = param ∧ ∀ i, i < param → 0 ≤ at0 x i ∧ at0 x i ≤ 1 := by
  have hb : Zdt.bounds ⟨id, param⟩ = (List.replicate param 0, List.replicate param 1) := by
    rcases h with rfl | rfl | rfl | rfl <;> rfl
  rw [hb]
  constructor
  · rintro ⟨h1, -, h3⟩
    have hl : x.length = param := by simpa using h1
    exact ⟨hl, fun i hi => h3 i 0 _ 1 (by simp [hi]) (some_at0 (by omega)) (by simp [hi])⟩
  · rintro ⟨h1, h2⟩
    refine ⟨by simp [h1], by simp [h1], fun i l a u e1 e2 e3 => ?_⟩
    have hi : i < param := by have := (List.getElem?_eq_some_iff.mp e2).1; omega
    simp [hi] at e1 e3
    subst e1; subst e3
    have := h2 i hi
    rwa [at0_some e2] at this

/-- the box of ZDT4 -/
theorem between_zdt4 {param : Nat} (hp : 0 < param) {x : List ℝ} :
    BetweenR (Zdt.bounds ⟨4, param⟩) x ↔ x.length = param ∧ (0 ≤ at0 x 0 ∧ at0 x 0 ≤ 1) ∧
      ∀ i, i < param → i ≠ 0 → -5 ≤ at0 x i ∧ at0 x i ≤ 5 := by
  show BetweenR ((List.replicate param (-5)).set 0 0, (List.replicate param 5).set 0 1) x ↔ _
  constructor
  · rintro ⟨h1, -, h3⟩
    have hl : x.length = param := by simpa using h1
    refine ⟨hl, h3 0 0 _ 1 (by simp [hp]) (some_at0 (by omega)) (by simp [hp]), fun i hi h0 => ?_⟩
    have h0' : ¬ 0 = i := fun e => h0 e.symm
    exact h3 i (-5) _ 5 (by simp [h0', hi]) (some_at0 (by omega)) (by simp [h0', hi])
  · rintro ⟨h1, h2, h3⟩
    refine ⟨by simp [h1], by simp [h1], fun i l a u e1 e2 e3 => ?_⟩
    have hi : i < param := by have := (List.getElem?_eq_some_iff.mp e2).1; omega
    by_cases h0 : i = 0
    · subst h0
      simp [hp] at e1 e3
      subst e1; subst e3
      rwa [at0_some e2] at h2
    · have h0' : ¬ 0 = i := fun e => h0 e.symm
      simp [h0', hi] at e1 e3
      subst e1; subst e3
      have := h3 i hi h0
      rwa [at0_some e2] at this

/-- the first component kept, the others 0 -/
noncomputable def flatTail (x : List ℝ) : List ℝ := at0 x 0 :: List.replicate (x.length - 1) 0

theorem flatTail_zero (x : List ℝ) : at0 (flatTail x) 0 = at0 x 0 := rfl

theorem flatTail_succ (x : List ℝ) (i : Nat) : at0 (flatTail x) (i + 1) = 0 := by
  simp only [flatTail, at0, List.getD_eq_getElem?_getD, List.getElem?_cons_succ, List.getElem?_replicate]
  split <;> rfl

theorem flatTail_length {x : List ℝ} (h : 0 < x.length) : (flatTail x).length = x.length := by simp [flatTail]; omega

theorem flatTail_sum (x : List ℝ) : tailSum (flatTail x) = 0 := sum_eq_zero (fun i _ => flatTail_succ x i)

theorem flatTail_sum4 (x : List ℝ) : tailSum4 (flatTail x) = 0 := sum_eq_zero (fun i _ => by rw [flatTail_succ]; simp)

theorem flatTail_between {id param : Nat} (h : id = 1 ∨ id = 2 ∨ id = 3 ∨ id = 6) (hp : 2 ≤ param) {x : List ℝ}
    (hx : BetweenR (Zdt.bounds ⟨id, param⟩) x) : BetweenR (Zdt.bounds ⟨id, param⟩) (flatTail x) := by
  obtain ⟨h1, h2⟩ := (between_zdt h).mp hx
  refine (between_zdt h).mpr ⟨by rw [flatTail_length (by omega), h1], fun i hi => ?_⟩
  match i with
  | 0 => exact h2 0 (by omega)
  | i + 1 => rw [flatTail_succ]; norm_num

theorem P123_nonneg {x : List ℝ} (h : ∀ i, i < x.length → 0 ≤ at0 x i) : 0 ≤ P123 x := by
  unfold P123
  have := tail_nonneg h
  positivity

theorem P6_nonneg {x : List ℝ} (h : ∀ i, i < x.length → 0 ≤ at0 x i) : 0 ≤ P6 x := by
  unfold P6
  have := tail_nonneg h
  positivity

theorem F6_nonneg {x : List ℝ} (h : 0 ≤ at0 x 0) : 0 ≤ F6 x := by
  have h1 : Real.exp (-4 * at0 x 0) ≤ 1 := Real.exp_le_one_iff.mpr (by linarith)
  have h2 : Real.sin (6 * Real.pi * at0 x 0) ^ 6 ≤ 1 := by
    have := Real.sin_sq_le_one (6 * Real.pi * at0 x 0)
    have h0 := sq_nonneg (Real.sin (6 * Real.pi * at0 x 0))
    calc Real.sin (6 * Real.pi * at0 x 0) ^ 6 = (Real.sin (6 * Real.pi * at0 x 0) ^ 2) ^ 3 := by ring
      _ ≤ 1 := pow_le_one₀ h0 this
  have h3 : 0 ≤ Real.sin (6 * Real.pi * at0 x 0) ^ 6 := by positivity
  have h4 := Real.exp_pos (-4 * at0 x 0)
  unfold F6
  nlinarith

/-- what the proofs need to know about each problem: fitness and distance in closed form -/
theorem zdt_form {id param : Nat} (hid : id = 1 ∨ id = 2 ∨ id = 3 ∨ id = 4 ∨ id = 6) (hp : 2 ≤ param) :
    ∃ (F P : List ℝ → ℝ) (H : ℝ → ℝ → ℝ) (A : ℝ → Prop),
      (∀ x, BetweenR (Zdt.bounds ⟨id, param⟩) x → A (F x) ∧ 0 ≤ P x ∧ Zdt.fitness ⟨id, param⟩ x = .ok [F x, H (F x) (P x)]) ∧
      (∀ x, BetweenR (Zdt.bounds ⟨id, param⟩) x → Zdt.pDistance ⟨id, param⟩ x = .ok (P x)) ∧
      (∀ a g, A a → 0 < g → H a 0 < H a g) ∧
      (id ≠ 3 → ∀ a c, A a → A c → a < c → H c 0 < H a 0) ∧
      (∀ x, BetweenR (Zdt.bounds ⟨id, param⟩) x → ∃ y, BetweenR (Zdt.bounds ⟨id, param⟩) y ∧ F y = F x ∧ P y = 0) := by
  have sqrt_anti : ∀ a c : ℝ, 0 ≤ a ∧ a ≤ 1 → 0 ≤ c ∧ c ≤ 1 → a < c →
      (1 + 0) * (1 - Real.sqrt (c / (1 + 0))) < (1 + 0) * (1 - Real.sqrt (a / (1 + 0))) := by
    intro a c ha _ h
    simp only [add_zero, one_mul, div_one]
    have := Real.sqrt_lt_sqrt ha.1 h
    linarith
  rcases hid with rfl | rfl | rfl | rfl | rfl
  · refine ⟨fun x => at0 x 0, P123, fun a g => (1 + g) * (1 - Real.sqrt (a / (1 + g))), fun a => 0 ≤ a ∧ a ≤ 1, ?_,
      fun x _ => pd123_ok x, fun a g ha hg => sqrt_shape ha.1 ha.2 hg, fun _ => sqrt_anti, ?_⟩
    · intro x hx
      obtain ⟨h1, h2⟩ := (between_zdt (.inl rfl)).mp hx
      exact ⟨h2 0 (by omega), P123_nonneg (fun i hi => (h2 i (by omega)).1), fit1_ok (by omega)⟩
    · intro x hx
      exact ⟨flatTail x, flatTail_between (.inl rfl) hp hx, rfl, by simp [P123, flatTail_sum]⟩
  · refine ⟨fun x => at0 x 0, P123, fun a g => (1 + g) * (1 - a / (1 + g) * (a / (1 + g))), fun a => 0 ≤ a ∧ a ≤ 1, ?_,
      fun x _ => pd123_ok x, fun a g _ hg => square_shape hg, fun _ a c ha _ h => square_anti ha.1 h, ?_⟩
    · intro x hx
      obtain ⟨h1, h2⟩ := (between_zdt (.inr (.inl rfl))).mp hx
      exact ⟨h2 0 (by omega), P123_nonneg (fun i hi => (h2 i (by omega)).1), fit2_ok (by omega)⟩
    · intro x hx
      exact ⟨flatTail x, flatTail_between (.inr (.inl rfl)) hp hx, rfl, by simp [P123, flatTail_sum]⟩
  · refine ⟨fun x => at0 x 0, P123,
      fun a g => (1 + g) * (1 - Real.sqrt (a / (1 + g)) - a / (1 + g) * Real.sin (10 * Real.pi * a)), fun a => 0 ≤ a ∧ a ≤ 1, ?_,
      fun x _ => pd123_ok x, fun a g ha hg => sin_shape _ ha.1 ha.2 hg, fun h => absurd rfl h, ?_⟩
    · intro x hx
      obtain ⟨h1, h2⟩ := (between_zdt (.inr (.inr (.inl rfl)))).mp hx
      exact ⟨h2 0 (by omega), P123_nonneg (fun i hi => (h2 i (by omega)).1), fit3_ok (by omega)⟩
    · intro x hx
      exact ⟨flatTail x, flatTail_between (.inr (.inr (.inl rfl))) hp hx, rfl, by simp [P123, flatTail_sum]⟩
  · refine ⟨fun x => at0 x 0, tailSum4, fun a g => (1 + g) * (1 - Real.sqrt (a / (1 + g))), fun a => 0 ≤ a ∧ a ≤ 1, ?_,
      fun x _ => pd4_ok x, fun a g ha hg => sqrt_shape ha.1 ha.2 hg, fun _ => sqrt_anti, ?_⟩
    · intro x hx
      obtain ⟨h1, h2, -⟩ := (between_zdt4 (by omega)).mp hx
      exact ⟨h2, tail4_nonneg x, fit4_ok (by omega)⟩
    · intro x hx
      obtain ⟨h1, h2, -⟩ := (between_zdt4 (by omega)).mp hx
      refine ⟨flatTail x, (between_zdt4 (by omega)).mpr ⟨by rw [flatTail_length (by omega), h1], h2, fun i _ h0 => ?_⟩, rfl,
        flatTail_sum4 x⟩
      obtain ⟨j, rfl⟩ := Nat.exists_eq_succ_of_ne_zero h0
      rw [flatTail_succ]; norm_num
  · refine ⟨F6, P6, fun a g => (1 + g) * (1 - a / (1 + g) * (a / (1 + g))), fun a => 0 ≤ a, ?_,
      fun x _ => pd6_ok x, fun a g _ hg => square_shape hg, fun _ a c ha _ h => square_anti ha h, ?_⟩
    · intro x hx
      obtain ⟨h1, h2⟩ := (between_zdt (.inr (.inr (.inr rfl)))).mp hx
      exact ⟨F6_nonneg (h2 0 (by omega)).1, P6_nonneg (fun i hi => (h2 i (by omega)).1), fit6_ok (by omega)⟩
    · intro x hx
      refine ⟨flatTail x, flatTail_between (.inr (.inr (.inr rfl))) hp hx, rfl, ?_⟩
      rw [P6, flatTail_sum, zero_div, Real.zero_rpow (by norm_num), mul_zero]

/-- C83 (front): where the fitness lies, given the distance `d`. ZDT1 and ZDT4: `f2 = (1 + d) (1 - sqrt(f1 / (1 + d)))`. ZDT2 and ZDT6:
`f2 = (1 + d) (1 - (f1 / (1 + d))^2)`. ZDT3: the term `f1 sin(10 pi f1)` is subtracted from the value for ZDT1. The first objective is the
first variable, but for ZDT6, where `1 - f1` is `exp(-4 x1) sin(6 pi x1)^6`. -/
theorem C83_front {id param : Nat} {p : Zdt} (hc : Zdt.ctor id param = .ok p) (hid : id ≠ 5) (x : List ℝ)
    (hx : BetweenR (Zdt.bounds p) x) :
    ∃ (a f1 f2 d : ℝ), x[0]? = some a ∧ Zdt.fitness p x = .ok [f1, f2] ∧ Zdt.pDistance p x = .ok d ∧
      (id ≠ 6 → f1 = a) ∧ (id = 6 → 1 - f1 = Real.exp (-4 * a) * Real.sin (6 * Real.pi * a) ^ 6) ∧
      (id = 1 ∨ id = 4 → f2 = (1 + d) * (1 - Real.sqrt (f1 / (1 + d)))) ∧
      (id = 2 ∨ id = 6 → f2 = (1 + d) * (1 - (f1 / (1 + d)) ^ 2)) ∧
      (id = 3 → f2 = (1 + d) * (1 - Real.sqrt (f1 / (1 + d))) - f1 * Real.sin (10 * Real.pi * f1)) := by
  have hp := (C83_ctor id param).1.mpr ⟨p, hc⟩
  obtain rfl := (C83_ctor id param).2.1 p hc
  have hl : 0 < x.length := by
    by_cases h4 : id = 4
    · subst h4; have := ((between_zdt4 (by omega)).mp hx).1; omega
    · have := ((between_zdt (by omega)).mp hx).1; omega
  have hid' : id = 1 ∨ id = 2 ∨ id = 3 ∨ id = 4 ∨ id = 6 := by omega
  refine ⟨at0 x 0, ?_⟩
  rcases hid' with rfl | rfl | rfl | rfl | rfl
  · exact ⟨_, _, _, some_at0 hl, fit1_ok hl, pd123_ok x, fun _ => rfl, fun h => by omega, fun _ => rfl, fun h => by omega,
      fun h => by omega⟩
  · exact ⟨_, _, _, some_at0 hl, fit2_ok hl, pd123_ok x, fun _ => rfl, fun h => by omega, fun h => by omega, fun _ => by ring,
      fun h => by omega⟩
  · refine ⟨_, _, _, some_at0 hl, fit3_ok hl, pd123_ok x, fun _ => rfl, fun h => by omega, fun h => by omega, fun h => by omega,
      fun _ => ?_⟩
    have : 1 + P123 x ≠ 0 := by
      have := P123_nonneg (x := x) (fun i hi => by
        obtain ⟨h1, h2⟩ := (between_zdt (by omega)).mp hx
        exact (h2 i (by omega)).1)
      linarith
    field_simp
  · exact ⟨_, _, _, some_at0 hl, fit4_ok hl, pd4_ok x, fun _ => rfl, fun h => by omega, fun _ => rfl, fun h => by omega,
      fun h => by omega⟩
  · exact ⟨_, _, _, some_at0 hl, fit6_ok hl, pd6_ok x, fun h => absurd rfl h, fun _ => by rw [F6]; ring, fun h => by omega,
      fun _ => by ring, fun h => by omega⟩

/-- C83 (zero implies optimal): in ZDT1, 2, 4 and 6 a decision vector of distance 0 is Pareto-optimal. -/
theorem C83_zero_optimal {id param : Nat} {p : Zdt} (hc : Zdt.ctor id param = .ok p) (hid : id = 1 ∨ id = 2 ∨ id = 4 ∨ id = 6)
    (x : List ℝ) (hx : BetweenR (Zdt.bounds p) x) (h0 : Zdt.pDistance p x = .ok 0) :
    ParetoOptimalR (Zdt.fitness p) (Zdt.bounds p) x := by
  have hp := (C83_ctor id param).1.mpr ⟨p, hc⟩
  obtain rfl := (C83_ctor id param).2.1 p hc
  obtain ⟨F, P, H, A, h1, h2, h3, h4, -⟩ := zdt_form (id := id) (param := param) (by omega) hp.2.2
  rw [h2 x hx] at h0
  exact zdt_zero_optimal h1 h3 (h4 (by omega)) hx (Outcome.ok.inj h0)

/-- C83 (optimal implies zero): in ZDT1, 2, 3, 4 and 6 a Pareto-optimal decision vector has distance 0. -/
theorem C83_optimal_zero {id param : Nat} {p : Zdt} (hc : Zdt.ctor id param = .ok p) (hid : id ≠ 5)
    (x : List ℝ) (hx : ParetoOptimalR (Zdt.fitness p) (Zdt.bounds p) x) : Zdt.pDistance p x = .ok 0 := by
  have hp := (C83_ctor id param).1.mpr ⟨p, hc⟩
  obtain rfl := (C83_ctor id param).2.1 p hc
  obtain ⟨F, P, H, A, h1, h2, h3, -, h5⟩ := zdt_form (id := id) (param := param) (by omega) hp.2.2
  rw [h2 x hx.1, zdt_optimal_zero h1 h3 h5 hx]

/-- C83 (non-negative): for a decision vector in the box the fitness has two components and the distance is not negative. -/
theorem C83_total {id param : Nat} {p : Zdt} (hc : Zdt.ctor id param = .ok p) (hw : id = 5 → 30 + 5 * (param - 1) < 2 ^ 32)
    (x : List ℝ) (hx : BetweenR (Zdt.bounds p) x) :
    ∃ (a b d : ℝ), Zdt.fitness p x = .ok [a, b] ∧ Zdt.pDistance p x = .ok d ∧ 0 ≤ d := by
  have hp := (C83_ctor id param).1.mpr ⟨p, hc⟩
  obtain rfl := (C83_ctor id param).2.1 p hc
  by_cases h5 : id = 5
  · subst h5
    have hl : x.length = (30 + 5 * (param - 1)) % 2 ^ 32 := by simpa [Zdt.bounds, dim5] using hx.1
    rw [Nat.mod_eq_of_lt (hw rfl)] at hl
    exact ⟨_, _, _, fit5_ok (by omega), pd5_ok (by omega), P5_nonneg _⟩
  · obtain ⟨F, P, H, A, h1, h2, -⟩ := zdt_form (id := id) (param := param) (by omega) hp.2.2
    exact ⟨_, _, _, (h1 x hx).2.2, h2 x hx, (h1 x hx).2.1⟩

/-- the box of ZDT5 -/
theorem between_zdt5 {param : Nat} (hw : 30 + 5 * (param - 1) < 2 ^ 32) {x : List ℝ} :
    BetweenR (Zdt.bounds ⟨5, param⟩) x ↔ x.length = 30 + 5 * (param - 1) ∧ ∀ i, i < x.length → 0 ≤ at0 x i ∧ at0 x i ≤ 1 := by
  have hb : Zdt.bounds ⟨5, param⟩ = (List.replicate (30 + 5 * (param - 1)) 0, List.replicate (30 + 5 * (param - 1)) 1) := by
    show (List.replicate (dim5 param) (0 : ℝ), List.replicate (dim5 param) (1 : ℝ)) = _
    rw [dim5, Nat.mod_eq_of_lt hw]
  rw [hb]
  constructor
  · rintro ⟨h1, -, h3⟩
    have hl : x.length = 30 + 5 * (param - 1) := by simpa using h1
    exact ⟨hl, fun i hi => h3 i 0 _ 1 (by rw [hl] at hi; simp [hi]) (some_at0 (by omega)) (by rw [hl] at hi; simp [hi])⟩
  · rintro ⟨h1, h2⟩
    refine ⟨by simp [h1], by simp [h1], fun i l a u e1 e2 e3 => ?_⟩
    have hi : i < x.length := (List.getElem?_eq_some_iff.mp e2).1
    have hi' := hi
    rw [h1] at hi'
    simp [hi'] at e1 e3
    subst e1; subst e3
    have := h2 i hi
    rwa [at0_some e2] at this

/-- the second objective of ZDT5 as a function of the first one and the distance of the rounded vector -/
noncomputable def zdt5Shape (param : Nat) (a g : ℝ) : ℝ := (g + ((param - 1 : Nat) : ℝ)) * (1 / a)

theorem zdt5_form {param : Nat} (hp : 2 ≤ param) (hw : 30 + 5 * (param - 1) < 2 ^ 32) :
    (∀ x, BetweenR (Zdt.bounds ⟨5, param⟩) x → 0 < F5 (x.map roundR) ∧ 0 ≤ P5 (x.map roundR) ∧
      Zdt.fitness ⟨5, param⟩ x = .ok [F5 (x.map roundR), zdt5Shape param (F5 (x.map roundR)) (P5 (x.map roundR))]) ∧
    (∀ a g : ℝ, 0 < a → 0 < g → zdt5Shape param a 0 < zdt5Shape param a g) ∧
    (∀ a c : ℝ, 0 < a → 0 < c → a < c → zdt5Shape param c 0 < zdt5Shape param a 0) := by
  refine ⟨fun x hx => ?_, fun a g ha hg => ?_, fun a c ha hc hac => ?_⟩
  · obtain ⟨h1, h2⟩ := (between_zdt5 hw).mp hx
    refine ⟨F5_pos _, P5_nonneg _, ?_⟩
    show fit5 x = _
    rw [fit5_ok (by omega), zdt5Shape, h1, show (30 + 5 * (param - 1) - 30) / 5 = param - 1 by omega]
  · unfold zdt5Shape
    have : 0 < 1 / a := by positivity
    nlinarith
  · unfold zdt5Shape
    have h1 : (0 : ℝ) < ((param - 1 : Nat) : ℝ) := by exact_mod_cast (by omega : 0 < param - 1)
    have h2 : 1 / c < 1 / a := one_div_lt_one_div_of_lt ha hac
    rw [zero_add]
    exact mul_lt_mul_of_pos_left h2 h1

/-- C83 (ZDT5, zero implies optimal): a decision vector of distance 0 is Pareto-optimal, be it integer or not. -/
theorem C83_zdt5_zero_optimal {param : Nat} {p : Zdt} (hc : Zdt.ctor 5 param = .ok p) (hw : 30 + 5 * (param - 1) < 2 ^ 32)
    (x : List ℝ) (hx : BetweenR (Zdt.bounds p) x) (h0 : Zdt.pDistance p x = .ok 0) :
    ParetoOptimalR (Zdt.fitness p) (Zdt.bounds p) x := by
  have hp := (C83_ctor 5 param).1.mpr ⟨p, hc⟩
  obtain rfl := (C83_ctor 5 param).2.1 p hc
  obtain ⟨h1, h2, h3⟩ := zdt5_form hp.2.2 hw
  refine zdt_zero_optimal (A := fun a => 0 < a) h1 h2 h3 hx ?_
  obtain ⟨hl, hb⟩ := (between_zdt5 hw).mp hx
  have h0' : pd5 x = .ok 0 := h0
  rw [pd5_ok (by omega)] at h0'
  have hz := (P5_zero _).mp (Outcome.ok.inj h0')
  refine (P5_zero _).mpr (fun i hi j hj => ?_)
  simp only [List.length_map] at hi hz
  have e := hz i hi j hj
  have hk : 30 + 5 * i + j < x.length := by omega
  rw [at0_map hk] at e ⊢
  rw [floorR_one_iff (hb _ hk).2] at e
  rw [e, roundR_one]

/-- `x` is a vector of zeros and ones, which is what the integer problem ZDT5 asks for -/
def ZeroOne (x : List ℝ) : Prop := ∀ a ∈ x, a = 0 ∨ a = 1

/-- C83 (ZDT5, front): for a vector of zeros and ones the first objective is one plus the number of ones among the first 30 entries, and the
product of the objectives is the distance plus the number of strings of length 5. -/
theorem C83_zdt5_front {param : Nat} {p : Zdt} (hc : Zdt.ctor 5 param = .ok p) (hw : 30 + 5 * (param - 1) < 2 ^ 32)
    (x : List ℝ) (hz : ZeroOne x) (hx : BetweenR (Zdt.bounds p) x) :
    ∃ (f1 f2 d : ℝ), Zdt.fitness p x = .ok [f1, f2] ∧ Zdt.pDistance p x = .ok d ∧ f1 = 1 + ((x.take 30).count 1 : ℝ) ∧
      f1 * f2 = d + ((param - 1 : Nat) : ℝ) := by
  have hp := (C83_ctor 5 param).1.mpr ⟨p, hc⟩
  obtain rfl := (C83_ctor 5 param).2.1 p hc
  obtain ⟨hl, -⟩ := (between_zdt5 hw).mp hx
  have hf : x.map floorR = x := by
    refine (List.map_congr_left (fun a ha => ?_)).trans (List.map_id x)
    rcases hz a ha with rfl | rfl <;> simp [floorR]
  have hr : x.map roundR = x := by
    refine (List.map_congr_left (fun a ha => ?_)).trans (List.map_id x)
    rcases hz a ha with rfl | rfl
    · rw [roundR_zero]; rfl
    · rw [roundR_one]; rfl
  refine ⟨_, _, _, fit5_ok (by omega), pd5_ok (by omega), ?_, ?_⟩
  · rw [hr, F5, cnt_take x 30 (by omega)]
  · rw [hf, hr, hl, show (30 + 5 * (param - 1) - 30) / 5 = param - 1 by omega]
    have := (F5_pos x).ne'
    field_simp

/-- C83 (ZDT5, optimal implies zero): a Pareto-optimal vector of zeros and ones has distance 0. -/
theorem C83_zdt5_optimal_zero {param : Nat} {p : Zdt} (hc : Zdt.ctor 5 param = .ok p) (hw : 30 + 5 * (param - 1) < 2 ^ 32)
    (x : List ℝ) (hz : ZeroOne x) (hx : ParetoOptimalR (Zdt.fitness p) (Zdt.bounds p) x) : Zdt.pDistance p x = .ok 0 := by
  have hp := (C83_ctor 5 param).1.mpr ⟨p, hc⟩
  obtain rfl := (C83_ctor 5 param).2.1 p hc
  obtain ⟨h1, h2, h3⟩ := zdt5_form hp.2.2 hw
  have hf : x.map floorR = x.map roundR := by
    refine List.map_congr_left (fun a ha => ?_)
    rcases hz a ha with rfl | rfl
    · rw [roundR_zero]; simp [floorR]
    · rw [roundR_one]; simp [floorR]
  obtain ⟨hl, -⟩ := (between_zdt5 hw).mp hx.1
  show pd5 x = _
  rw [pd5_ok (by omega), hf]
  congr 1
  refine zdt_optimal_zero (A := fun a => 0 < a) (F := fun x => F5 (x.map roundR)) (P := fun x => P5 (x.map roundR)) h1 h2 ?_ hx
  intro x hx
  obtain ⟨hl, hb⟩ := (between_zdt5 hw).mp hx
  have ha : ∀ k, at0 (x.take 30 ++ List.replicate (x.length - 30) 1) k = if k < 30 then at0 x k else if k < x.length then 1 else 0 := by
    intro k
    simp only [at0, List.getD_eq_getElem?_getD, List.getElem?_append, List.length_take, List.getElem?_take, List.getElem?_replicate]
    by_cases h : k < 30
    · rw [if_pos (by omega), if_pos h, if_pos h]
    · rw [if_neg (by omega), if_neg h]
      by_cases h' : k < x.length
      · rw [if_pos (by omega), if_pos h']; rfl
      · rw [if_neg (by omega), if_neg h']; rfl
  have hlen : (x.take 30 ++ List.replicate (x.length - 30) (1 : ℝ)).length = x.length := by simp; omega
  refine ⟨x.take 30 ++ List.replicate (x.length - 30) 1, (between_zdt5 hw).mpr ⟨by rw [hlen, hl], fun i hi => ?_⟩, ?_, ?_⟩
  · rw [ha]
    split
    · exact hb i (by omega)
    · rw [if_pos (by omega)]; norm_num
  · show F5 _ = F5 _
    rw [F5, F5, cnt, cnt]
    refine congrArg (fun n : Nat => 1 + (n : ℝ)) (sum_congr rfl (fun j hj => ?_))
    have := mem_range.mp hj
    rw [at0_map (by omega), at0_map (by omega), ha, if_pos (show 0 + j < 30 by omega)]
  · refine (P5_zero _).mpr (fun i hi j hj => ?_)
    rw [List.length_map, hlen] at hi
    rw [at0_map (by omega), ha, if_neg (by omega), if_pos (by omega), roundR_one]

/-- C83 is false of ZDT3: distance 0 does not imply Pareto-optimal. (3/20, 0) is dominated by (1/20, 0). -/
theorem C83_zdt3_false : ∃ (p : Zdt) (x : List ℝ), Zdt.ctor 3 2 = .ok p ∧ BetweenR (Zdt.bounds p) x ∧ Zdt.pDistance p x = .ok 0 ∧
    ¬ ParetoOptimalR (Zdt.fitness p) (Zdt.bounds p) x := by
  have hb : ∀ a : ℝ, 0 ≤ a → a ≤ 1 → BetweenR (Zdt.bounds ⟨3, 2⟩) [a, 0] := by
    intro a h0 h1
    refine (between_zdt (.inr (.inr (.inl rfl)))).mpr ⟨rfl, fun i hi => ?_⟩
    match i, hi with
    | 0, _ => exact ⟨h0, h1⟩
    | 1, _ => exact ⟨le_rfl, zero_le_one⟩
  have hP : ∀ a : ℝ, P123 [a, 0] = 0 := by intro a; simp [P123, tailSum, at0]
  refine ⟨⟨3, 2⟩, [3 / 20, 0], rfl, hb _ (by norm_num) (by norm_num), ?_, ?_⟩
  · show pd123 _ = _
    rw [pd123_ok, hP]
  · rintro ⟨-, u, hu, hn⟩
    have hu' : fit3 [3 / 20, 0] = .ok u := hu
    rw [fit3_ok (by simp), hP] at hu'
    have hv := fit3_ok (x := [1 / 20, 0]) (by simp)
    rw [hP] at hv
    cases hu'
    refine hn [1 / 20, 0] _ (hb _ (by norm_num) (by norm_num)) hv (dominates_two.mpr ⟨?_, ?_, .inl ?_⟩)
    · show (1 / 20 : ℝ) ≤ 3 / 20; norm_num
    · show (1 + 0) * (1 - Real.sqrt (1 / 20 / (1 + 0)) - 1 / 20 / (1 + 0) * Real.sin (10 * Real.pi * (1 / 20))) ≤
        (1 + 0) * (1 - Real.sqrt (3 / 20 / (1 + 0)) - 3 / 20 / (1 + 0) * Real.sin (10 * Real.pi * (3 / 20)))
      have s1 : Real.sin (10 * Real.pi * (1 / 20)) = 1 := by
        rw [show 10 * Real.pi * (1 / 20) = Real.pi / 2 by ring, Real.sin_pi_div_two]
      have s2 : Real.sin (10 * Real.pi * (3 / 20)) = -1 := by
        rw [show 10 * Real.pi * (3 / 20) = Real.pi / 2 + Real.pi by ring, Real.sin_add_pi, Real.sin_pi_div_two]
      rw [s1, s2]
      simp only [add_zero, one_mul, div_one]
      have r1 : (1 / 5 : ℝ) ≤ Real.sqrt (1 / 20) := Real.le_sqrt_of_sq_le (by norm_num)
      have r2 : Real.sqrt (3 / 20) ≤ 2 / 5 := (Real.sqrt_le_left (by norm_num)).mpr (by norm_num)
      linarith
    · show (1 / 20 : ℝ) < 3 / 20; norm_num

/-- C83 is false of ZDT5 for vectors that are not integer: the fitness rounds them (as documented: [0.97, ...] has the fitness of [1, ...]),
`p_distance` takes the integer part. The vector of 35 entries 0.97 is Pareto-optimal, has the fitness of the vector of ones and the distance
1, whereas the vector of ones has the distance 0. -/
theorem C83_zdt5_false : ∃ (p : Zdt) (x y : List ℝ), Zdt.ctor 5 2 = .ok p ∧ x = List.replicate 35 0.97 ∧ y = List.replicate 35 1 ∧
    Zdt.fitness p x = Zdt.fitness p y ∧ Zdt.pDistance p y = .ok 0 ∧ Zdt.pDistance p x = .ok 1 ∧
    ParetoOptimalR (Zdt.fitness p) (Zdt.bounds p) x := by
  have r97 : roundR 0.97 = 1 := by
    have : ⌊(0.97 : ℝ) + 1 / 2⌋ = 1 := by rw [Int.floor_eq_iff]; norm_num
    rw [roundR, if_pos (by norm_num), this]; norm_num
  have f97 : floorR 0.97 = 0 := by
    have : ⌊(0.97 : ℝ)⌋ = 0 := by rw [Int.floor_eq_iff]; norm_num
    rw [floorR, this]; norm_num
  have f1 : floorR 1 = 1 := by simp [floorR]
  have at1 : ∀ (c : ℝ) (k : Nat), k < 35 → at0 (List.replicate 35 c) k = c := by
    intro c k hk
    rw [at0, List.getD_eq_getElem?_getD, List.getElem?_replicate, if_pos hk]; rfl
  have hP1 : P5 (List.replicate 35 1) = 0 := by
    refine (P5_zero _).mpr (fun i hi j hj => ?_)
    rw [List.length_replicate] at hi
    exact at1 1 _ (by omega)
  have hP0 : P5 (List.replicate 35 0) = 1 := by
    have hc : cnt (List.replicate 35 0) 30 5 = 0 := by
      rw [cnt]
      refine sum_eq_zero (fun j hj => ?_)
      have := mem_range.mp hj
      rw [at1 0 _ (by omega), if_neg (by norm_num)]
    rw [P5, List.length_replicate, show (35 - 30) / 5 = 1 from rfl, sum_range_one, Nat.mul_zero, Nat.add_zero, hc]
    norm_num [blockValue]
  have hb : BetweenR (Zdt.bounds ⟨5, 2⟩) (List.replicate 35 0.97) := by
    refine (between_zdt5 (by norm_num)).mpr ⟨by simp, fun i hi => ?_⟩
    rw [List.length_replicate] at hi
    rw [at1 _ _ hi]; norm_num
  refine ⟨⟨5, 2⟩, _, _, rfl, rfl, rfl, ?_, ?_, ?_, ?_⟩
  · show fit5 _ = fit5 _
    rw [fit5_ok (by simp), fit5_ok (by simp)]
    simp only [List.map_replicate, r97, roundR_one, List.length_replicate]
  · show pd5 _ = _
    rw [pd5_ok (by simp), List.map_replicate, f1, hP1]
  · show pd5 _ = _
    rw [pd5_ok (by simp), List.map_replicate, f97, hP0]
  · obtain ⟨h1, h2, h3⟩ := zdt5_form (param := 2) le_rfl (by norm_num)
    refine zdt_zero_optimal (A := fun a => 0 < a) h1 h2 h3 hb ?_
    rw [List.map_replicate, r97, hP1]

/-- C83 is false of ZDT5 for large parameters: the number of variables wraps around. The problem with 858993460 strings is accepted by the
constructor and has 29 variables, and its fitness throws on every vector of that size. -/
theorem C83_zdt5_wraps : ∃ p, Zdt.ctor 5 858993460 = .ok p ∧ (Zdt.bounds p).1.length = 29 ∧ (Zdt.bounds p).2.length = 29 ∧ Zdt.nix p = 29 ∧
    ∀ x : List ℝ, x.length = 29 → Zdt.fitness p x = .throws .badAlloc := by
  refine ⟨⟨5, 858993460⟩, rfl, ?_, ?_, ?_, fun x hx => ?_⟩
  · show (List.replicate (dim5 858993460) (0 : ℝ)).length = 29
    rw [List.length_replicate]; rfl
  · show (List.replicate (dim5 858993460) (1 : ℝ)).length = 29
    rw [List.length_replicate]; rfl
  · rfl
  · show fit5 x = _
    rw [fit5, if_pos (by omega)]

/-- ZDT1 in two variables: distance 0 at (1/2, 0), hence optimal; distance 9 at (1/2, 1), hence not -/
example : ParetoOptimalR (Zdt.fitness ⟨1, 2⟩) (Zdt.bounds ⟨1, 2⟩) [1 / 2, 0] ∧
    ¬ ParetoOptimalR (Zdt.fitness ⟨1, 2⟩) (Zdt.bounds ⟨1, 2⟩) [1 / 2, 1] := by
  constructor
  · refine C83_zero_optimal (id := 1) (param := 2) rfl (.inl rfl) _ ?_ ?_
    · refine (between_zdt (.inl rfl)).mpr ⟨rfl, fun i hi => ?_⟩
      match i, hi with
      | 0, _ => show (0 : ℝ) ≤ 1 / 2 ∧ (1 / 2 : ℝ) ≤ 1; norm_num
      | 1, _ => exact ⟨le_rfl, zero_le_one⟩
    · show pd123 _ = _
      rw [pd123_ok]; simp [P123, tailSum, at0]
  · intro h
    have := C83_optimal_zero (id := 1) (param := 2) rfl (by decide) _ h
    have e : pd123 [1 / 2, 1] = .ok 0 := this
    rw [pd123_ok] at e
    have := Outcome.ok.inj e
    simp [P123, tailSum, at0] at this

/-- ZDT5 with two strings: all zeros but the last string is an optimal vector of zeros and ones -/
example : ParetoOptimalR (Zdt.fitness ⟨5, 2⟩) (Zdt.bounds ⟨5, 2⟩) (List.replicate 30 0 ++ List.replicate 5 1) := by
  refine C83_zdt5_zero_optimal (param := 2) rfl (by norm_num) _ ?_ ?_
  · refine (between_zdt5 (by norm_num)).mpr ⟨by simp, fun i hi => ?_⟩
    have : at0 (List.replicate 30 0 ++ List.replicate 5 1) i ∈ (List.replicate 30 (0 : ℝ) ++ List.replicate 5 1) :=
      List.mem_of_getElem? (some_at0 hi)
    rcases List.mem_append.mp this with h | h
    · rw [(List.mem_replicate.mp h).2]; norm_num
    · rw [(List.mem_replicate.mp h).2]; norm_num
  · show pd5 _ = _
    rw [pd5_ok (by simp)]
    congr 1
    refine (P5_zero _).mpr (fun i hi j hj => ?_)
    have hi' : i = 0 := by simp at hi; omega
    subst hi'
    simp only [List.map_append, List.map_replicate, show floorR 1 = 1 by simp [floorR], show floorR 0 = 0 by simp [floorR]]
    simp only [at0, List.getD_eq_getElem?_getD]
    rw [List.getElem?_append_right (by simp)]
    rw [List.length_replicate, List.getElem?_replicate, if_pos (by omega)]; rfl

/-- C83 (population). For a population in the box which is not empty, the result is the average of the distances, never negative, and zero exactly
when all the distances are. -/
theorem C83_population {id param : Nat} {p : Zdt} (hc : Zdt.ctor id param = .ok p) (hw : id = 5 → 30 + 5 * (param - 1) < 2 ^ 32)
    (xs : List (List ℝ)) (hne : xs ≠ []) (h : ∀ x ∈ xs, BetweenR (Zdt.bounds p) x) :
    ∃ (d : ℝ) (ds : List ℝ), Zdt.pDistancePop p xs = .ok d ∧ List.Forall₂ (fun x a => Zdt.pDistance p x = .ok a) xs ds ∧ d * xs.length = ds.sum ∧ 0 ≤ d ∧
      (d = 0 ↔ ∀ x ∈ xs, Zdt.pDistance p x = .ok 0) := by
  have key : ∀ (l : List (List ℝ)) (c : ℝ), (∀ x ∈ l, BetweenR (Zdt.bounds p) x) → ∃ ds : List ℝ,
      l.foldlM (fun c x => do let d ← Zdt.pDistance p x; .ok (c + d)) c = .ok (c + ds.sum) ∧
      List.Forall₂ (fun x a => Zdt.pDistance p x = .ok a) l ds ∧ (∀ a ∈ ds, 0 ≤ a) := by
    intro l
    induction l with
    | nil => intro c _; exact ⟨[], by simp, List.Forall₂.nil, by simp⟩
    | cons x l ih =>
      intro c hl
      obtain ⟨-, -, a, -, ha, h0⟩ := C83_total hc hw x (hl x (by simp))
      obtain ⟨ds, h1, h2, h3⟩ := ih (c + a) (fun z hz => hl z (by simp [hz]))
      refine ⟨a :: ds, ?_, List.Forall₂.cons ha h2, ?_⟩
      · rw [List.foldlM_cons, ha]
        simp only [Outcome.bind_ok]
        rw [h1, List.sum_cons, add_assoc]
      · intro b hb
        rcases List.mem_cons.mp hb with rfl | hb
        · exact h0
        · exact h3 b hb
  obtain ⟨ds, h1, h2, h3⟩ := key xs 0 h
  have hpos : (0 : ℝ) < xs.length := by exact_mod_cast List.length_pos_iff.mpr hne
  refine ⟨(0 + ds.sum) / xs.length, ds, ?_, h2, ?_, ?_, ?_⟩
  · unfold Zdt.pDistancePop
    rw [h1]; rfl
  · rw [zero_add, div_mul_cancel₀ _ hpos.ne']
  · rw [zero_add]
    exact div_nonneg (List.sum_nonneg h3) hpos.le
  · rw [zero_add, div_eq_zero_iff, or_iff_left hpos.ne']
    constructor
    · intro hs x hx
      obtain ⟨i, hi, rfl⟩ := List.mem_iff_getElem.mp hx
      have hi' : i < ds.length := by rw [← h2.length_eq]; exact hi
      have e := List.all_zero_of_le_zero_le_of_sum_eq_zero h3 hs (List.getElem_mem hi')
      have := h2.get hi hi'
      simp only [List.get_eq_getElem] at this
      rw [this, e]
    · intro hz
      refine List.sum_eq_zero (fun v hv => ?_)
      obtain ⟨i, hi, rfl⟩ := List.mem_iff_getElem.mp hv
      have hi' : i < xs.length := by rw [h2.length_eq]; exact hi
      have := h2.get hi' hi
      simp only [List.get_eq_getElem] at this
      rw [hz _ (List.getElem_mem hi')] at this
      exact (Outcome.ok.inj this).symm

/-- two vectors of ZDT1, one optimal and one not: the average is not zero -/
example : ∃ d, Zdt.pDistancePop ⟨1, 2⟩ [[1 / 2, 0], [1 / 2, 1]] = .ok d ∧ 0 < d := by
  have hb : ∀ x ∈ [[1 / 2, 0], [1 / 2, (1 : ℝ)]], BetweenR (Zdt.bounds ⟨1, 2⟩) x := by
    intro x hx
    simp only [List.mem_cons, List.not_mem_nil, or_false] at hx
    refine (between_zdt (.inl rfl)).mpr ⟨by rcases hx with rfl | rfl <;> rfl, fun i hi => ?_⟩
    rcases hx with rfl | rfl <;>
    match i, hi with
    | 0, _ => simp only [at0, List.getD_cons_zero]; norm_num
    | 1, _ => simp only [at0, List.getD_cons_succ, List.getD_cons_zero]; norm_num
  obtain ⟨d, ds, h1, -, -, h2, h3⟩ := C83_population (id := 1) (param := 2) (p := ⟨1, 2⟩) rfl (by decide) [[1 / 2, 0], [1 / 2, 1]] (by simp) hb
  refine ⟨d, h1, lt_of_le_of_ne h2 (fun h0 => ?_)⟩
  have : pd123 [1 / 2, 1] = .ok 0 := h3.mp h0.symm [1 / 2, 1] (by simp)
  rw [pd123_ok] at this
  have := Outcome.ok.inj this
  simp [P123, tailSum, at0] at this

end Verif.Props
