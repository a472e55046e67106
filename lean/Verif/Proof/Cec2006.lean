import Verif.Model.Cec2006
import Verif.Spec.Cec2006
import Verif.Proof.Analytic
import Mathlib.Tactic.NormNum.OfScientific

/-!
# Expressions: values and where they are defined
-/

set_option autoImplicit false

namespace Verif.Cec06

open Verif Verif.Analytic Verif.Spec

/-- local variable `i`, 0 if it has no value -/
def tat (ts : List (Option ℝ)) (i : Nat) : ℝ := (ts.getD i none).getD 0

/-- the value of an expression, whatever where it is not defined -/
noncomputable def E.val (xs : List ℝ) (ts : List (Option ℝ)) : E → ℝ
  | .x i => at0 xs i
  | .t i => tat ts i
  | .q a => (a : ℝ)
  | .pi => Real.pi
  | .add a b => a.val xs ts + b.val xs ts
  | .sub a b => a.val xs ts - b.val xs ts
  | .mul a b => a.val xs ts * b.val xs ts
  | .div a b => a.val xs ts / b.val xs ts
  | .neg a => -a.val xs ts
  | .pow a n => a.val xs ts ^ n
  | .rpow a r => a.val xs ts ^ (r : ℝ)
  | .sqrt a => Real.sqrt (a.val xs ts)
  | .abs a => |a.val xs ts|
  | .sin a => Real.sin (a.val xs ts)
  | .cos a => Real.cos (a.val xs ts)
  | .exp a => Real.exp (a.val xs ts)
  | .log a => Real.log (a.val xs ts)
  | .less a b => if a.val xs ts < b.val xs ts then a.val xs ts else b.val xs ts
  | .ite a b c d => if a.val xs ts < b.val xs ts then c.val xs ts else d.val xs ts

/-- where an expression is defined -/
def E.Def (xs : List ℝ) (ts : List (Option ℝ)) : E → Prop
  | .x i => i < xs.length
  | .t i => ∃ v, ts[i]? = some (some v)
  | .q _ => True
  | .pi => True
  | .add a b => a.Def xs ts ∧ b.Def xs ts
  | .sub a b => a.Def xs ts ∧ b.Def xs ts
  | .mul a b => a.Def xs ts ∧ b.Def xs ts
  | .div a b => a.Def xs ts ∧ b.Def xs ts ∧ b.val xs ts ≠ 0
  | .neg a => a.Def xs ts
  | .pow a _ => a.Def xs ts
  | .rpow a _ => a.Def xs ts ∧ 0 ≤ a.val xs ts
  | .sqrt a => a.Def xs ts ∧ 0 ≤ a.val xs ts
  | .abs a => a.Def xs ts
  | .sin a => a.Def xs ts
  | .cos a => a.Def xs ts
  | .exp a => a.Def xs ts
  | .log a => a.Def xs ts ∧ 0 < a.val xs ts
  | .less a b => a.Def xs ts ∧ b.Def xs ts
  | .ite a b c d => a.Def xs ts ∧ b.Def xs ts ∧ (a.val xs ts < b.val xs ts → c.Def xs ts) ∧ (¬a.val xs ts < b.val xs ts → d.Def xs ts)

/-- everything read is in range -/
def E.wf (n k : Nat) : E → Bool
  | .x i => decide (i < n)
  | .t i => decide (i < k)
  | .q _ => true
  | .pi => true
  | .add a b => a.wf n k && b.wf n k
  | .sub a b => a.wf n k && b.wf n k
  | .mul a b => a.wf n k && b.wf n k
  | .div a b => a.wf n k && b.wf n k
  | .neg a => a.wf n k
  | .pow a _ => a.wf n k
  | .rpow a _ => a.wf n k
  | .sqrt a => a.wf n k
  | .abs a => a.wf n k
  | .sin a => a.wf n k
  | .cos a => a.wf n k
  | .exp a => a.wf n k
  | .log a => a.wf n k
  | .less a b => a.wf n k && b.wf n k
  | .ite a b c d => a.wf n k && b.wf n k && c.wf n k && d.wf n k

/-- no partial operation and no local variable, and everything read is in range -/
def E.poly (n : Nat) : E → Bool
  | .x i => decide (i < n)
  | .t _ => false
  | .q _ => true
  | .pi => true
  | .add a b => a.poly n && b.poly n
  | .sub a b => a.poly n && b.poly n
  | .mul a b => a.poly n && b.poly n
  | .div a (.q b) => a.poly n && decide (b ≠ 0)
  | .div _ _ => false
  | .neg a => a.poly n
  | .pow a _ => a.poly n
  | .rpow _ _ => false
  | .sqrt (.q a) => decide (0 ≤ a)
  | .sqrt _ => false
  | .abs a => a.poly n
  | .sin a => a.poly n
  | .cos a => a.poly n
  | .exp a => a.poly n
  | .log _ => false
  | .less a b => a.poly n && b.poly n
  | .ite a b c d => a.poly n && b.poly n && c.poly n && d.poly n

theorem eval_def {xs : List ℝ} {ts : List (Option ℝ)} : ∀ (e : E), e.Def xs ts → e.eval xs ts = .ok (some (e.val xs ts)) := by
  intro e
  induction e with
  | x i => intro h; simp only [E.eval, E.val, get_at0 h, Outcome.bind_ok]
  | t i =>
    rintro ⟨v, h⟩
    simp only [E.eval, E.val, tat]
    rw [Outcome.get_eq_ok_iff.mpr h, List.getD_eq_getElem?_getD, h]; rfl
  | q a => intro _; rfl
  | pi => intro _; rfl
  | add a b iha ihb => rintro ⟨h1, h2⟩; simp only [E.eval, iha h1, ihb h2, Outcome.bind_ok, both, E.val]
  | sub a b iha ihb => rintro ⟨h1, h2⟩; simp only [E.eval, iha h1, ihb h2, Outcome.bind_ok, both, E.val]
  | mul a b iha ihb => rintro ⟨h1, h2⟩; simp only [E.eval, iha h1, ihb h2, Outcome.bind_ok, both, E.val]
  | div a b iha ihb => rintro ⟨h1, h2, h3⟩; simp only [E.eval, iha h1, ihb h2, Outcome.bind_ok, both, E.val, if_neg h3]
  | neg a ih => intro h; simp only [E.eval, ih h, Outcome.bind_ok, E.val, Option.map_some]
  | pow a n ih => intro h; simp only [E.eval, ih h, Outcome.bind_ok, E.val, Option.map_some]
  | rpow a r ih => rintro ⟨h, h0⟩; simp only [E.eval, ih h, Outcome.bind_ok, E.val, Option.bind_some, if_neg (not_lt.mpr h0)]
  | sqrt a ih => rintro ⟨h, h0⟩; simp only [E.eval, ih h, Outcome.bind_ok, E.val, Option.bind_some, if_neg (not_lt.mpr h0)]
  | abs a ih => intro h; simp only [E.eval, ih h, Outcome.bind_ok, E.val, Option.map_some]
  | sin a ih => intro h; simp only [E.eval, ih h, Outcome.bind_ok, E.val, Option.map_some]
  | cos a ih => intro h; simp only [E.eval, ih h, Outcome.bind_ok, E.val, Option.map_some]
  | exp a ih => intro h; simp only [E.eval, ih h, Outcome.bind_ok, E.val, Option.map_some]
  | log a ih => rintro ⟨h, h0⟩; simp only [E.eval, ih h, Outcome.bind_ok, E.val, Option.bind_some, if_neg (not_le.mpr h0)]
  | less a b iha ihb => rintro ⟨h1, h2⟩; simp only [E.eval, iha h1, ihb h2, Outcome.bind_ok, both, E.val]
  | ite a b c d iha ihb ihc ihd =>
    rintro ⟨h1, h2, h3, h4⟩
    simp only [E.eval, iha h1, ihb h2, Outcome.bind_ok, E.val]
    by_cases h : a.val xs ts < b.val xs ts
    · rw [if_pos h, if_pos h, ihc (h3 h)]
    · rw [if_neg h, if_neg h, ihd (h4 h)]

theorem bind_some_inv {o : Outcome (Option ℝ)} {g : Option ℝ → Option ℝ} {v : ℝ} (h : (o >>= fun u => Outcome.ok (g u)) = .ok (some v))
    (hg : g none = none) : ∃ u, o = .ok (some u) ∧ g (some u) = some v := by
  cases o with
  | ok u =>
    cases u with
    | some u => simp only [Outcome.bind_ok, Outcome.ok.injEq] at h; exact ⟨u, rfl, h⟩
    | none => simp only [Outcome.bind_ok, Outcome.ok.injEq, hg] at h; cases h
  | throws e => cases h
  | ub => cases h
  | nofuel => cases h

theorem bind_both_inv {o p : Outcome (Option ℝ)} {f : ℝ → ℝ → Option ℝ} {v : ℝ}
    (h : (o >>= fun u => p >>= fun w => Outcome.ok (both f u w)) = .ok (some v)) :
    ∃ u w, o = .ok (some u) ∧ p = .ok (some w) ∧ f u w = some v := by
  cases o with
  | ok u =>
    rw [Outcome.bind_ok] at h
    cases u with
    | none =>
      cases p with
      | ok w => cases w <;> (simp only [Outcome.bind_ok, Outcome.ok.injEq, both] at h; cases h)
      | throws e => cases h
      | ub => cases h
      | nofuel => cases h
    | some u =>
      obtain ⟨w, hw, h2⟩ := bind_some_inv h rfl
      exact ⟨u, w, rfl, hw, h2⟩
  | throws e => cases h
  | ub => cases h
  | nofuel => cases h

theorem def_eval {xs : List ℝ} {ts : List (Option ℝ)} : ∀ (e : E) (v : ℝ), e.eval xs ts = .ok (some v) → e.Def xs ts ∧ v = e.val xs ts := by
  intro e
  induction e with
  | x i =>
    intro v h
    by_cases hi : i < xs.length
    · simp only [E.eval, get_at0 hi, Outcome.bind_ok, Outcome.ok.injEq, Option.some.injEq] at h
      exact ⟨hi, h.symm⟩
    · simp only [E.eval, Outcome.get, List.getElem?_eq_none (not_lt.mp hi)] at h; cases h
  | t i =>
    intro v h
    have := Outcome.get_eq_ok_iff.mp h
    exact ⟨⟨v, this⟩, by simp only [E.val, tat, List.getD_eq_getElem?_getD, this, Option.getD_some]⟩
  | q a => intro v h; cases h; exact ⟨trivial, rfl⟩
  | pi => intro v h; cases h; exact ⟨trivial, rfl⟩
  | add a b iha ihb =>
    intro v h; obtain ⟨u, w, h1, h2, h3⟩ := bind_both_inv h; cases h3
    obtain ⟨d1, rfl⟩ := iha u h1; obtain ⟨d2, rfl⟩ := ihb w h2; exact ⟨⟨d1, d2⟩, rfl⟩
  | sub a b iha ihb =>
    intro v h; obtain ⟨u, w, h1, h2, h3⟩ := bind_both_inv h; cases h3
    obtain ⟨d1, rfl⟩ := iha u h1; obtain ⟨d2, rfl⟩ := ihb w h2; exact ⟨⟨d1, d2⟩, rfl⟩
  | mul a b iha ihb =>
    intro v h; obtain ⟨u, w, h1, h2, h3⟩ := bind_both_inv h; cases h3
    obtain ⟨d1, rfl⟩ := iha u h1; obtain ⟨d2, rfl⟩ := ihb w h2; exact ⟨⟨d1, d2⟩, rfl⟩
  | div a b iha ihb =>
    intro v h; obtain ⟨u, w, h1, h2, h3⟩ := bind_both_inv h
    obtain ⟨d1, rfl⟩ := iha u h1; obtain ⟨d2, rfl⟩ := ihb w h2
    by_cases h0 : b.val xs ts = 0
    · rw [if_pos h0] at h3; cases h3
    · rw [if_neg h0] at h3; cases h3; exact ⟨⟨d1, d2, h0⟩, rfl⟩
  | neg a ih => intro v h; obtain ⟨u, h1, h2⟩ := bind_some_inv h rfl; cases h2; obtain ⟨d, rfl⟩ := ih u h1; exact ⟨d, rfl⟩
  | pow a n ih => intro v h; obtain ⟨u, h1, h2⟩ := bind_some_inv h rfl; cases h2; obtain ⟨d, rfl⟩ := ih u h1; exact ⟨d, rfl⟩
  | abs a ih => intro v h; obtain ⟨u, h1, h2⟩ := bind_some_inv h rfl; cases h2; obtain ⟨d, rfl⟩ := ih u h1; exact ⟨d, rfl⟩
  | sin a ih => intro v h; obtain ⟨u, h1, h2⟩ := bind_some_inv h rfl; cases h2; obtain ⟨d, rfl⟩ := ih u h1; exact ⟨d, rfl⟩
  | cos a ih => intro v h; obtain ⟨u, h1, h2⟩ := bind_some_inv h rfl; cases h2; obtain ⟨d, rfl⟩ := ih u h1; exact ⟨d, rfl⟩
  | exp a ih => intro v h; obtain ⟨u, h1, h2⟩ := bind_some_inv h rfl; cases h2; obtain ⟨d, rfl⟩ := ih u h1; exact ⟨d, rfl⟩
  | rpow a r ih =>
    intro v h; obtain ⟨u, h1, h2⟩ := bind_some_inv h rfl; obtain ⟨d, rfl⟩ := ih u h1
    rw [Option.bind_some] at h2
    by_cases h0 : a.val xs ts < 0
    · rw [if_pos h0] at h2; cases h2
    · rw [if_neg h0] at h2; cases h2; exact ⟨⟨d, not_lt.mp h0⟩, rfl⟩
  | sqrt a ih =>
    intro v h; obtain ⟨u, h1, h2⟩ := bind_some_inv h rfl; obtain ⟨d, rfl⟩ := ih u h1
    rw [Option.bind_some] at h2
    by_cases h0 : a.val xs ts < 0
    · rw [if_pos h0] at h2; cases h2
    · rw [if_neg h0] at h2; cases h2; exact ⟨⟨d, not_lt.mp h0⟩, rfl⟩
  | log a ih =>
    intro v h; obtain ⟨u, h1, h2⟩ := bind_some_inv h rfl; obtain ⟨d, rfl⟩ := ih u h1
    rw [Option.bind_some] at h2
    by_cases h0 : a.val xs ts ≤ 0
    · rw [if_pos h0] at h2; cases h2
    · rw [if_neg h0] at h2; cases h2; exact ⟨⟨d, not_le.mp h0⟩, rfl⟩
  | less a b iha ihb =>
    intro v h; obtain ⟨u, w, h1, h2, h3⟩ := bind_both_inv h; cases h3
    obtain ⟨d1, rfl⟩ := iha u h1; obtain ⟨d2, rfl⟩ := ihb w h2; exact ⟨⟨d1, d2⟩, rfl⟩
  | ite a b c d iha ihb ihc ihd =>
    intro v h
    simp only [E.eval] at h
    cases h1 : a.eval xs ts with
    | throws e => rw [h1] at h; cases h
    | ub => rw [h1] at h; cases h
    | nofuel => rw [h1] at h; cases h
    | ok u =>
      rw [h1, Outcome.bind_ok] at h
      cases h2 : b.eval xs ts with
      | throws e => rw [h2] at h; cases h
      | ub => rw [h2] at h; cases h
      | nofuel => rw [h2] at h; cases h
      | ok w =>
        rw [h2, Outcome.bind_ok] at h
        cases u with
        | none => cases h
        | some u =>
          cases w with
          | none => cases h
          | some w =>
            obtain ⟨d1, rfl⟩ := iha u h1; obtain ⟨d2, rfl⟩ := ihb w h2
            dsimp only at h
            by_cases hc : a.val xs ts < b.val xs ts
            · rw [if_pos hc] at h; obtain ⟨d3, e3⟩ := ihc v h
              exact ⟨⟨d1, d2, fun _ => d3, fun hn => absurd hc hn⟩, by simp only [E.val, if_pos hc, e3]⟩
            · rw [if_neg hc] at h; obtain ⟨d3, e3⟩ := ihd v h
              exact ⟨⟨d1, d2, fun hn => absurd hn hc, fun _ => d3⟩, by simp only [E.val, if_neg hc, e3]⟩

theorem eval_wf {xs : List ℝ} {ts : List (Option ℝ)} {n k : Nat} (hn : n ≤ xs.length) (hk : k ≤ ts.length) :
    ∀ (e : E), e.wf n k = true → ∃ o, e.eval xs ts = .ok o := by
  intro e
  induction e with
  | x i =>
    intro h; have hi : i < n := of_decide_eq_true h
    exact ⟨_, by simp only [E.eval, get_at0 (show i < xs.length by omega), Outcome.bind_ok]; rfl⟩
  | t i =>
    intro h; have hi : i < k := of_decide_eq_true h
    exact ⟨_, Outcome.get_of_lt (show i < ts.length by omega)⟩
  | q a => intro _; exact ⟨_, rfl⟩
  | pi => intro _; exact ⟨_, rfl⟩
  | add a b iha ihb =>
    intro h; simp only [E.wf, Bool.and_eq_true] at h; obtain ⟨u, hu⟩ := iha h.1; obtain ⟨w, hw⟩ := ihb h.2
    exact ⟨_, by simp only [E.eval, hu, hw, Outcome.bind_ok]; rfl⟩
  | sub a b iha ihb =>
    intro h; simp only [E.wf, Bool.and_eq_true] at h; obtain ⟨u, hu⟩ := iha h.1; obtain ⟨w, hw⟩ := ihb h.2
    exact ⟨_, by simp only [E.eval, hu, hw, Outcome.bind_ok]; rfl⟩
  | mul a b iha ihb =>
    intro h; simp only [E.wf, Bool.and_eq_true] at h; obtain ⟨u, hu⟩ := iha h.1; obtain ⟨w, hw⟩ := ihb h.2
    exact ⟨_, by simp only [E.eval, hu, hw, Outcome.bind_ok]; rfl⟩
  | div a b iha ihb =>
    intro h; simp only [E.wf, Bool.and_eq_true] at h; obtain ⟨u, hu⟩ := iha h.1; obtain ⟨w, hw⟩ := ihb h.2
    exact ⟨_, by simp only [E.eval, hu, hw, Outcome.bind_ok]; rfl⟩
  | less a b iha ihb =>
    intro h; simp only [E.wf, Bool.and_eq_true] at h; obtain ⟨u, hu⟩ := iha h.1; obtain ⟨w, hw⟩ := ihb h.2
    exact ⟨_, by simp only [E.eval, hu, hw, Outcome.bind_ok]; rfl⟩
  | neg a ih => intro h; obtain ⟨u, hu⟩ := ih h; exact ⟨_, by simp only [E.eval, hu, Outcome.bind_ok]; rfl⟩
  | pow a n ih => intro h; obtain ⟨u, hu⟩ := ih h; exact ⟨_, by simp only [E.eval, hu, Outcome.bind_ok]; rfl⟩
  | rpow a r ih => intro h; obtain ⟨u, hu⟩ := ih h; exact ⟨_, by simp only [E.eval, hu, Outcome.bind_ok]; rfl⟩
  | sqrt a ih => intro h; obtain ⟨u, hu⟩ := ih h; exact ⟨_, by simp only [E.eval, hu, Outcome.bind_ok]; rfl⟩
  | abs a ih => intro h; obtain ⟨u, hu⟩ := ih h; exact ⟨_, by simp only [E.eval, hu, Outcome.bind_ok]; rfl⟩
  | sin a ih => intro h; obtain ⟨u, hu⟩ := ih h; exact ⟨_, by simp only [E.eval, hu, Outcome.bind_ok]; rfl⟩
  | cos a ih => intro h; obtain ⟨u, hu⟩ := ih h; exact ⟨_, by simp only [E.eval, hu, Outcome.bind_ok]; rfl⟩
  | exp a ih => intro h; obtain ⟨u, hu⟩ := ih h; exact ⟨_, by simp only [E.eval, hu, Outcome.bind_ok]; rfl⟩
  | log a ih => intro h; obtain ⟨u, hu⟩ := ih h; exact ⟨_, by simp only [E.eval, hu, Outcome.bind_ok]; rfl⟩
  | ite a b c d iha ihb ihc ihd =>
    intro h; simp only [E.wf, Bool.and_eq_true] at h
    obtain ⟨u, hu⟩ := iha h.1.1.1; obtain ⟨w, hw⟩ := ihb h.1.1.2
    simp only [E.eval, hu, hw, Outcome.bind_ok]
    cases u with
    | none => exact ⟨none, rfl⟩
    | some u =>
      cases w with
      | none => exact ⟨none, rfl⟩
      | some w =>
        dsimp only
        by_cases hc : u < w
        · rw [if_pos hc]; exact ihc h.1.2
        · rw [if_neg hc]; exact ihd h.2

theorem def_poly {xs : List ℝ} {ts : List (Option ℝ)} {n : Nat} (hn : n ≤ xs.length) : ∀ (e : E), e.poly n = true → e.Def xs ts := by
  intro e
  induction e with
  | x i => intro h; exact lt_of_lt_of_le (of_decide_eq_true h) hn
  | t i => intro h; cases h
  | q a => intro _; trivial
  | pi => intro _; trivial
  | add a b iha ihb => intro h; simp only [E.poly, Bool.and_eq_true] at h; exact ⟨iha h.1, ihb h.2⟩
  | sub a b iha ihb => intro h; simp only [E.poly, Bool.and_eq_true] at h; exact ⟨iha h.1, ihb h.2⟩
  | mul a b iha ihb => intro h; simp only [E.poly, Bool.and_eq_true] at h; exact ⟨iha h.1, ihb h.2⟩
  | div a b iha ihb =>
    intro h
    cases b with
    | q c =>
      simp only [E.poly, Bool.and_eq_true, decide_eq_true_eq] at h
      exact ⟨iha h.1, trivial, by simpa only [E.val, ne_eq, Rat.cast_eq_zero] using h.2⟩
    | _ => cases h
  | less a b iha ihb => intro h; simp only [E.poly, Bool.and_eq_true] at h; exact ⟨iha h.1, ihb h.2⟩
  | neg a ih => intro h; exact ih h
  | pow a n ih => intro h; exact ih h
  | rpow a r ih => intro h; cases h
  | sqrt a ih =>
    intro h
    cases a with
    | q c => simp only [E.poly, decide_eq_true_eq] at h; exact ⟨trivial, by simpa only [E.val, Rat.cast_nonneg] using h⟩
    | _ => cases h
  | abs a ih => intro h; exact ih h
  | sin a ih => intro h; exact ih h
  | cos a ih => intro h; exact ih h
  | exp a ih => intro h; exact ih h
  | log a ih => intro h; cases h
  | ite a b c d iha ihb ihc ihd =>
    intro h; simp only [E.poly, Bool.and_eq_true] at h
    exact ⟨iha h.1.1.1, ihb h.1.1.2, fun _ => ihc h.1.2, fun _ => ihd h.2⟩

theorem cecMapM {xs : List ℝ} {ts : List (Option ℝ)} {n k : Nat} (hn : n ≤ xs.length) (hk : k ≤ ts.length) :
    ∀ (es : List E), es.all (fun e => e.wf n k) = true →
      ∃ vs, es.mapM (fun e => e.eval xs ts) = .ok vs ∧ vs.length = es.length ∧
        ∀ (i : Nat) (e : E), es[i]? = some e → ∃ o, e.eval xs ts = .ok o ∧ vs[i]? = some o := by
  intro es
  induction es with
  | nil => intro _; exact ⟨[], rfl, rfl, fun i e h => by simp at h⟩
  | cons e es ih =>
    intro h
    simp only [List.all_cons, Bool.and_eq_true] at h
    obtain ⟨o, ho⟩ := eval_wf hn hk e h.1
    obtain ⟨vs, hvs, hl, hi⟩ := ih h.2
    refine ⟨o :: vs, by simp only [List.mapM_cons, ho, hvs, Outcome.bind_ok, Outcome.pure_eq], by simp [hl], ?_⟩
    intro i e' he
    cases i with
    | zero => simp only [List.getElem?_cons_zero, Option.some.injEq] at he; subst he; exact ⟨o, ho, rfl⟩
    | succ i => simp only [List.getElem?_cons_succ] at he ⊢; exact hi i e' he

theorem runTemps_ok {xs : List ℝ} {n : Nat} (hn : n ≤ xs.length) :
    ∀ (es : List E) (ts : List (Option ℝ)), (∀ (i : Nat) (e : E), es[i]? = some e → e.wf n (ts.length + i) = true) →
      ∃ r, runTemps xs ts es = .ok r ∧ r.length = ts.length + es.length := by
  intro es
  induction es with
  | nil => intro ts _; exact ⟨ts, rfl, rfl⟩
  | cons e es ih =>
    intro ts h
    obtain ⟨o, ho⟩ := eval_wf hn (le_refl ts.length) e (by simpa using h 0 e rfl)
    obtain ⟨r, hr, hl⟩ := ih (ts ++ [o]) (fun i e' he => by
      have := h (i + 1) e' (by simpa using he)
      simpa [List.length_append, Nat.add_assoc, Nat.add_comm 1 i] using this)
    exact ⟨r, by simp only [runTemps, ho, Outcome.bind_ok]; exact hr, by simp only [hl, List.length_append, List.length_cons, List.length_nil]; omega⟩

/-- everything a problem reads is in range and it has as many constraints as it announces -/
def Prob.wf (p : Prob) : Bool :=
  (p.temps.zipIdx.all (fun e => e.1.wf p.dim e.2)) && p.con.all (fun e => e.wf p.dim p.temps.length) && p.obj.wf p.dim p.temps.length &&
    decide (p.con.length = p.nec + p.nic) && decide (p.lb.length = p.dim) && decide (p.ub.length = p.dim) && decide (p.best.length = p.dim)

theorem fitness_wf {p : Prob} (h : p.wf = true) {xs : List ℝ} (hx : xs.length = p.dim) :
    ∃ ts f cs, runTemps xs [] p.temps = .ok ts ∧ ts.length = p.temps.length ∧ p.obj.eval xs ts = .ok f ∧
      fitness p xs = .ok (f :: cs) ∧ cs.length = p.nec + p.nic ∧
      ∀ (i : Nat) (e : E), p.con[i]? = some e → ∃ o, e.eval xs ts = .ok o ∧ cs[i]? = some o := by
  simp only [Prob.wf, Bool.and_eq_true, decide_eq_true_eq] at h
  obtain ⟨⟨⟨⟨⟨⟨h1, h2⟩, h3⟩, h4⟩, -⟩, -⟩, -⟩ := h
  obtain ⟨ts, hts, hl⟩ := runTemps_ok (le_of_eq hx.symm) p.temps [] (fun i e he => by
    have := List.all_eq_true.mp h1 (e, i) (by rw [List.mem_zipIdx_iff_getElem?]; exact he)
    simpa using this)
  have hl' : ts.length = p.temps.length := by simpa using hl
  obtain ⟨vs, hvs, hvl, hvi⟩ := cecMapM (le_of_eq hx.symm) (le_of_eq hl'.symm) p.con h2
  obtain ⟨f, hf⟩ := eval_wf (le_of_eq hx.symm) (le_of_eq hl'.symm) p.obj h3
  refine ⟨ts, f, vs, hts, hl', hf, ?_, by omega, hvi⟩
  simp only [fitness, hts, hvs, hf, Outcome.bind_ok, write]
  rw [if_neg (by omega), show p.nec + p.nic - vs.length = 0 by omega]
  simp

@[simp] theorem val_x (xs : List ℝ) (ts : List (Option ℝ)) (i : Nat) : (E.x i).val xs ts = at0 xs i := rfl
@[simp] theorem val_t (xs : List ℝ) (ts : List (Option ℝ)) (i : Nat) : (E.t i).val xs ts = tat ts i := rfl
@[simp] theorem val_q (xs : List ℝ) (ts : List (Option ℝ)) (a : ℚ) : (E.q a).val xs ts = (a : ℝ) := rfl
@[simp] theorem val_add (xs : List ℝ) (ts : List (Option ℝ)) (a b : E) : (a + b).val xs ts = a.val xs ts + b.val xs ts := rfl
@[simp] theorem val_sub (xs : List ℝ) (ts : List (Option ℝ)) (a b : E) : (a - b).val xs ts = a.val xs ts - b.val xs ts := rfl
@[simp] theorem val_mul (xs : List ℝ) (ts : List (Option ℝ)) (a b : E) : (a * b).val xs ts = a.val xs ts * b.val xs ts := rfl
@[simp] theorem val_div (xs : List ℝ) (ts : List (Option ℝ)) (a b : E) : (a / b).val xs ts = a.val xs ts / b.val xs ts := rfl
@[simp] theorem val_neg (xs : List ℝ) (ts : List (Option ℝ)) (a : E) : (-a).val xs ts = -a.val xs ts := rfl
@[simp] theorem val_pow (xs : List ℝ) (ts : List (Option ℝ)) (a : E) (n : Nat) : (a ^ n).val xs ts = a.val xs ts ^ n := rfl
@[simp] theorem val_less (xs : List ℝ) (ts : List (Option ℝ)) (a b : E) :
    (E.less a b).val xs ts = if a.val xs ts < b.val xs ts then a.val xs ts else b.val xs ts := rfl
@[simp] theorem val_sqrt (xs : List ℝ) (ts : List (Option ℝ)) (a : E) : (E.sqrt a).val xs ts = Real.sqrt (a.val xs ts) := rfl
@[simp] theorem val_sci (xs : List ℝ) (ts : List (Option ℝ)) (m : Nat) (s : Bool) (e : Nat) :
    (OfScientific.ofScientific m s e : E).val xs ts = OfScientific.ofScientific m s e := by
  show ((OfScientific.ofScientific m s e : ℚ) : ℝ) = _
  rw [Rat.cast_ofScientific]
@[simp] theorem val_ofNat (xs : List ℝ) (ts : List (Option ℝ)) (n : Nat) : (no_index (OfNat.ofNat n : E)).val xs ts = (n : ℝ) :=
  Rat.cast_natCast n
@[simp] theorem val_zero (xs : List ℝ) (ts : List (Option ℝ)) : (0 : E).val xs ts = 0 := by
  show ((((0 : Nat) : ℚ)) : ℝ) = 0
  simp
@[simp] theorem val_one (xs : List ℝ) (ts : List (Option ℝ)) : (1 : E).val xs ts = 1 := by
  show ((((1 : Nat) : ℚ)) : ℝ) = 1
  simp

/-- the fitness of a problem without partial operations -/
theorem fitness_poly {p : Prob} (h : p.wf = true) (ht : p.temps = []) (ho : p.obj.poly p.dim = true) (hc : p.con.all (fun e => e.poly p.dim) = true)
    {xs : List ℝ} (hx : xs.length = p.dim) :
    fitness p xs = .ok (some (p.obj.val xs []) :: p.con.map (fun e => some (e.val xs []))) := by
  obtain ⟨ts, f, cs, h1, h2, h3, h4, h5, h6⟩ := fitness_wf h hx
  rw [ht, runTemps] at h1; cases h1
  rw [eval_def p.obj (def_poly (le_of_eq hx.symm) _ ho)] at h3; cases h3
  rw [h4]
  congr 2
  simp only [Prob.wf, Bool.and_eq_true, decide_eq_true_eq] at h
  apply List.ext_getElem?
  intro i
  rw [List.getElem?_map]
  cases he : p.con[i]? with
  | none =>
    rw [List.getElem?_eq_none_iff] at he
    rw [Option.map_none, List.getElem?_eq_none_iff]; omega
  | some e =>
    obtain ⟨o, h7, h8⟩ := h6 i e he
    rw [eval_def e (def_poly (le_of_eq hx.symm) e (List.all_eq_true.mp hc e (List.mem_of_getElem? he)))] at h7
    cases h7; rw [h8]; rfl

/-- the bounds of one component -/
theorem box_at {lb ub : List ℚ} {x : List ℝ} (h : InBox lb ub x) (i : Nat) (l u : ℚ) (hl : lb[i]? = some l) (hu : ub[i]? = some u) :
    (l : ℝ) ≤ at0 x i ∧ at0 x i ≤ (u : ℝ) :=
  h.2 i l u _ hl hu (some_at0 (by rw [h.1]; exact (List.getElem?_eq_some_iff.mp hl).1))

/-! ## rational points -/

/-- the value of an expression at a rational point, if all operations are rational and defined -/
def E.rat (xs ts : List ℚ) : E → Option ℚ
  | .x i => xs[i]?
  | .t i => ts[i]?
  | .q a => some a
  | .add a b => match a.rat xs ts, b.rat xs ts with
    | some u, some v => some (u + v)
    | _, _ => none
  | .sub a b => match a.rat xs ts, b.rat xs ts with
    | some u, some v => some (u - v)
    | _, _ => none
  | .mul a b => match a.rat xs ts, b.rat xs ts with
    | some u, some v => some (u * v)
    | _, _ => none
  | .div a b => match a.rat xs ts, b.rat xs ts with
    | some u, some v => if v = 0 then none else some (u / v)
    | _, _ => none
  | .neg a => match a.rat xs ts with
    | some u => some (-u)
    | none => none
  | .pow a n => match a.rat xs ts with
    | some u => some (u ^ n)
    | none => none
  | .less a b => match a.rat xs ts, b.rat xs ts with
    | some u, some v => match decide (u < v) with
      | true => some u
      | false => some v
    | _, _ => none
  | _ => none

/-- the local variables at a rational point -/
def ratTemps (xs : List ℚ) : List ℚ → List E → Option (List ℚ)
  | ts, [] => some ts
  | ts, e :: es => match e.rat xs ts with
    | some v => ratTemps xs (ts ++ [v]) es
    | none => none

/-- the values of expressions at a rational point -/
def ratAll (xs ts : List ℚ) : List E → Option (List ℚ)
  | [] => some []
  | e :: es => match e.rat xs ts, ratAll xs ts es with
    | some v, some vs => some (v :: vs)
    | _, _ => none

/-- the fitness at a rational point -/
def Prob.rat (p : Prob) (xs : List ℚ) : Option (ℚ × List ℚ) :=
  match ratTemps xs [] p.temps with
  | some ts => match p.obj.rat xs ts, ratAll xs ts p.con with
    | some f, some cs => some (f, cs)
    | _, _ => none
  | none => none

/-- a rational point as real vector -/
def realPt (xs : List ℚ) : List ℝ := xs.map (fun q : ℚ => (q : ℝ))

/-- rational values as values of constraints or local variables -/
def someVals (ts : List ℚ) : List (Option ℝ) := ts.map (fun q : ℚ => some (q : ℝ))

theorem rat_eval {xs ts : List ℚ} : ∀ (e : E) (r : ℚ), e.rat xs ts = some r → e.eval (realPt xs) (someVals ts) = .ok (some (r : ℝ)) := by
  intro e
  induction e with
  | x i =>
    intro r h
    have : Outcome.get (realPt xs) i = .ok (r : ℝ) := Outcome.get_eq_ok_iff.mpr (by rw [realPt, List.getElem?_map, show xs[i]? = some r from h]; rfl)
    simp only [E.eval, this, Outcome.bind_ok]
  | t i =>
    intro r h
    exact Outcome.get_eq_ok_iff.mpr (by rw [someVals, List.getElem?_map, show ts[i]? = some r from h]; rfl)
  | q a => intro r h; cases h; rfl
  | add a b iha ihb =>
    intro r h; simp only [E.rat] at h; split at h
    · next u v h1 h2 => cases h; simp only [E.eval, iha u h1, ihb v h2, Outcome.bind_ok, both, Rat.cast_add]
    · cases h
  | sub a b iha ihb =>
    intro r h; simp only [E.rat] at h; split at h
    · next u v h1 h2 => cases h; simp only [E.eval, iha u h1, ihb v h2, Outcome.bind_ok, both, Rat.cast_sub]
    · cases h
  | mul a b iha ihb =>
    intro r h; simp only [E.rat] at h; split at h
    · next u v h1 h2 => cases h; simp only [E.eval, iha u h1, ihb v h2, Outcome.bind_ok, both, Rat.cast_mul]
    · cases h
  | div a b iha ihb =>
    intro r h; simp only [E.rat] at h; split at h
    · next u v h1 h2 =>
      by_cases h0 : v = 0
      · rw [if_pos h0] at h; cases h
      · rw [if_neg h0] at h; cases h
        have h0' : (v : ℝ) ≠ 0 := by exact_mod_cast h0
        simp only [E.eval, iha u h1, ihb v h2, Outcome.bind_ok, both, if_neg h0', Rat.cast_div]
    · cases h
  | neg a ih =>
    intro r h; simp only [E.rat] at h; split at h
    · next u h1 => cases h; simp only [E.eval, ih u h1, Outcome.bind_ok, Option.map_some, Rat.cast_neg]
    · cases h
  | pow a n ih =>
    intro r h; simp only [E.rat] at h; split at h
    · next u h1 => cases h; simp only [E.eval, ih u h1, Outcome.bind_ok, Option.map_some, Rat.cast_pow]
    · cases h
  | less a b iha ihb =>
    intro r h; simp only [E.rat] at h; split at h
    · next u v h1 h2 =>
      simp only [E.eval, iha u h1, ihb v h2, Outcome.bind_ok, both, Rat.cast_lt]
      by_cases hc : u < v
      · rw [decide_eq_true hc] at h; cases h; rw [if_pos hc]
      · rw [decide_eq_false hc] at h; cases h; rw [if_neg hc]
    · cases h
  | _ => intro r h; cases h

theorem ratTemps_run {xs : List ℚ} : ∀ (es : List E) (ts r : List ℚ), ratTemps xs ts es = some r →
    runTemps (realPt xs) (someVals ts) es = .ok (someVals r) := by
  intro es
  induction es with
  | nil => intro ts r h; cases h; rfl
  | cons e es ih =>
    intro ts r h
    simp only [ratTemps] at h; split at h
    · next v hv =>
      simp only [runTemps, rat_eval e v hv, Outcome.bind_ok]
      have := ih (ts ++ [v]) r h
      simpa [someVals] using this
    · cases h

theorem ratAll_mapM {xs ts : List ℚ} : ∀ (es : List E) (r : List ℚ), ratAll xs ts es = some r →
    es.mapM (fun e => e.eval (realPt xs) (someVals ts)) = .ok (someVals r) ∧ r.length = es.length := by
  intro es
  induction es with
  | nil => intro r h; cases h; exact ⟨rfl, rfl⟩
  | cons e es ih =>
    intro r h
    simp only [ratAll] at h; split at h
    · next v vs hv hvs =>
      cases h
      obtain ⟨h1, h2⟩ := ih vs hvs
      exact ⟨by simp only [List.mapM_cons, rat_eval e v hv, h1, Outcome.bind_ok, Outcome.pure_eq]; rfl, by simp [h2]⟩
    · cases h

theorem rat_fitness {p : Prob} (hp : p.con.length = p.nec + p.nic) {xs : List ℚ} {f : ℚ} {cs : List ℚ} (h : p.rat xs = some (f, cs)) :
    fitness p (realPt xs) = .ok (some (f : ℝ) :: someVals cs) := by
  simp only [Prob.rat] at h
  split at h
  · next ts hts =>
    split at h
    · next f' cs' hf hcs =>
      cases h
      obtain ⟨h1, h2⟩ := ratAll_mapM p.con cs hcs
      have h3 := ratTemps_run p.temps [] ts hts
      have hl : (someVals cs).length = p.nec + p.nic := by simp [someVals, h2, hp]
      simp only [fitness]
      rw [show ([] : List (Option ℝ)) = someVals [] from rfl, h3]
      simp only [Outcome.bind_ok, h1, rat_eval p.obj f hf, write, hl]
      rw [if_neg (lt_irrefl _)]
      simp
    · cases h
  · cases h

/-! ## where an expression is defined -/

@[simp] theorem def_x (xs : List ℝ) (ts : List (Option ℝ)) (i : Nat) : (E.x i).Def xs ts ↔ i < xs.length := Iff.rfl
@[simp] theorem def_t (xs : List ℝ) (ts : List (Option ℝ)) (i : Nat) : (E.t i).Def xs ts ↔ ∃ v, ts[i]? = some (some v) := Iff.rfl
@[simp] theorem def_q (xs : List ℝ) (ts : List (Option ℝ)) (a : ℚ) : (E.q a).Def xs ts ↔ True := Iff.rfl
@[simp] theorem def_add (xs : List ℝ) (ts : List (Option ℝ)) (a b : E) : (a + b).Def xs ts ↔ a.Def xs ts ∧ b.Def xs ts := Iff.rfl
@[simp] theorem def_sub (xs : List ℝ) (ts : List (Option ℝ)) (a b : E) : (a - b).Def xs ts ↔ a.Def xs ts ∧ b.Def xs ts := Iff.rfl
@[simp] theorem def_mul (xs : List ℝ) (ts : List (Option ℝ)) (a b : E) : (a * b).Def xs ts ↔ a.Def xs ts ∧ b.Def xs ts := Iff.rfl
@[simp] theorem def_div (xs : List ℝ) (ts : List (Option ℝ)) (a b : E) :
    (a / b).Def xs ts ↔ a.Def xs ts ∧ b.Def xs ts ∧ b.val xs ts ≠ 0 := Iff.rfl
@[simp] theorem def_neg (xs : List ℝ) (ts : List (Option ℝ)) (a : E) : (-a).Def xs ts ↔ a.Def xs ts := Iff.rfl
@[simp] theorem def_negE (xs : List ℝ) (ts : List (Option ℝ)) (a : E) : (E.neg a).Def xs ts ↔ a.Def xs ts := Iff.rfl
@[simp] theorem def_pow (xs : List ℝ) (ts : List (Option ℝ)) (a : E) (n : Nat) : (a ^ n).Def xs ts ↔ a.Def xs ts := Iff.rfl
@[simp] theorem def_rpow (xs : List ℝ) (ts : List (Option ℝ)) (a : E) (r : ℚ) : (E.rpow a r).Def xs ts ↔ a.Def xs ts ∧ 0 ≤ a.val xs ts := Iff.rfl
@[simp] theorem def_sqrt (xs : List ℝ) (ts : List (Option ℝ)) (a : E) : (E.sqrt a).Def xs ts ↔ a.Def xs ts ∧ 0 ≤ a.val xs ts := Iff.rfl
@[simp] theorem def_log (xs : List ℝ) (ts : List (Option ℝ)) (a : E) : (E.log a).Def xs ts ↔ a.Def xs ts ∧ 0 < a.val xs ts := Iff.rfl
@[simp] theorem def_abs (xs : List ℝ) (ts : List (Option ℝ)) (a : E) : (E.abs a).Def xs ts ↔ a.Def xs ts := Iff.rfl
@[simp] theorem def_sin (xs : List ℝ) (ts : List (Option ℝ)) (a : E) : (E.sin a).Def xs ts ↔ a.Def xs ts := Iff.rfl
@[simp] theorem def_pi (xs : List ℝ) (ts : List (Option ℝ)) : E.pi.Def xs ts ↔ True := Iff.rfl
@[simp] theorem def_ite (xs : List ℝ) (ts : List (Option ℝ)) (a b c d : E) : (E.ite a b c d).Def xs ts ↔
    a.Def xs ts ∧ b.Def xs ts ∧ (a.val xs ts < b.val xs ts → c.Def xs ts) ∧ (¬a.val xs ts < b.val xs ts → d.Def xs ts) := Iff.rfl
@[simp] theorem def_sci (xs : List ℝ) (ts : List (Option ℝ)) (m : Nat) (s : Bool) (e : Nat) :
    (OfScientific.ofScientific m s e : E).Def xs ts ↔ True := Iff.rfl
@[simp] theorem def_ofNat (xs : List ℝ) (ts : List (Option ℝ)) (n : Nat) : (no_index (OfNat.ofNat n : E)).Def xs ts ↔ True := Iff.rfl
@[simp] theorem def_zero (xs : List ℝ) (ts : List (Option ℝ)) : (0 : E).Def xs ts ↔ True := Iff.rfl
@[simp] theorem def_one (xs : List ℝ) (ts : List (Option ℝ)) : (1 : E).Def xs ts ↔ True := Iff.rfl

theorem def_foldAdd {α : Type} (xs : List ℝ) (ts : List (Option ℝ)) (g : α → E) : ∀ (l : List α) (a : E),
    (l.foldl (fun s i => s + g i) a).Def xs ts ↔ a.Def xs ts ∧ ∀ i ∈ l, (g i).Def xs ts := by
  intro l
  induction l with
  | nil => intro a; simp
  | cons b l ih => intro a; rw [List.foldl_cons, ih]; simp [and_assoc]

theorem val_foldAdd {α : Type} (xs : List ℝ) (ts : List (Option ℝ)) (g : α → E) : ∀ (l : List α) (a : E),
    (l.foldl (fun s i => s + g i) a).val xs ts = a.val xs ts + (l.map (fun i => (g i).val xs ts)).sum := by
  intro l
  induction l with
  | nil => intro a; simp
  | cons b l ih => intro a; rw [List.foldl_cons, ih]; simp [add_assoc]

/-- an expression that is in range has no value exactly where it is not defined -/
theorem eval_none {xs : List ℝ} {ts : List (Option ℝ)} {n k : Nat} (hn : n ≤ xs.length) (hk : k ≤ ts.length) (e : E) (h : e.wf n k = true) :
    e.eval xs ts = .ok none ↔ ¬e.Def xs ts := by
  constructor
  · intro h1 h2; rw [eval_def e h2] at h1; cases h1
  · intro h1
    obtain ⟨o, ho⟩ := eval_wf hn hk e h
    cases o with
    | none => exact ho
    | some v => exact absurd (def_eval e v ho).1 h1

theorem runTemps_poly {xs : List ℝ} {n : Nat} (hn : n ≤ xs.length) :
    ∀ (es : List E) (ts : List (Option ℝ)), es.all (fun e => e.poly n) = true →
      ∃ vs : List ℝ, vs.length = es.length ∧ runTemps xs ts es = .ok (ts ++ vs.map some) := by
  intro es
  induction es with
  | nil => intro ts _; exact ⟨[], rfl, by simp [runTemps]⟩
  | cons e es ih =>
    intro ts h
    simp only [List.all_cons, Bool.and_eq_true] at h
    obtain ⟨vs, hl, hv⟩ := ih (ts ++ [some (e.val xs ts)]) h.2
    refine ⟨e.val xs ts :: vs, by simp [hl], ?_⟩
    simp only [runTemps, eval_def e (def_poly hn e h.1), Outcome.bind_ok, hv]
    simp

/-- the bounds of all components -/
theorem inBox_of {lb ub : List ℚ} {x : List ℝ} (hl : x.length = lb.length)
    (h : ∀ i, i < lb.length → ((lb.getD i 0 : ℚ) : ℝ) ≤ at0 x i ∧ at0 x i ≤ ((ub.getD i 0 : ℚ) : ℝ)) : InBox lb ub x := by
  refine ⟨hl, fun i l u v h1 h2 h3 => ?_⟩
  have := h i (List.getElem?_eq_some_iff.mp h1).1
  rw [List.getD_eq_getElem?_getD, List.getD_eq_getElem?_getD, h1, h2, at0_some h3] at this
  exact this

end Verif.Cec06
