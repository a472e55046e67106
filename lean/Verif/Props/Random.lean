import Verif.Model.Random
import Verif.Props.Problem

/-!
# C46, C47: random decision vectors
-/

set_option autoImplicit false

namespace Verif.Props

open Verif Rnd Prob

variable {K σ : Type} [Field K] [LinearOrder K]

/-- `v` is a value between `l` and `u` (not NaN when `u` is not NaN), an integer if `isInt`. -/
def InRange (l u : Fl K) (isInt : Prop) (v : Fl K) : Prop := l ≤ v ∧ v ≤ u ∧ (isInt → ∃ z : ℤ, v = .fin (z : K))

/-- A decision vector inside the bounds, integral on its last `nix` components. -/
def InBox (lb ub : List (Fl K)) (nix : Nat) (x : List (Fl K)) : Prop :=
  x.length = lb.length ∧ ∀ (i : Nat) (l u v : Fl K), lb[i]? = some l → ub[i]? = some u → x[i]? = some v →
    InRange l u (lb.length - nix ≤ i) v

/-- Bounds between which component `i` can be drawn: finite; if continuous the range does not overflow; if integral the
bounds fit in `long long`. -/
def Drawable (op : Fl.Ops K) (lb ub : List (Fl K)) (nix i : Nat) : Prop :=
  ∀ l u : Fl K, lb[i]? = some l → ub[i]? = some u →
    l.isFinite = true ∧ u.isFinite = true ∧
    (i < lb.length - nix → (op.sub u l).isFinite = true) ∧
    (lb.length - nix ≤ i → ∀ z : ℤ, (l = .fin (z : K) ∨ u = .fin (z : K)) → -2 ^ 63 ≤ z ∧ z ≤ 2 ^ 63 - 1)

/-- The bounds are made of doubles. -/
def Reps (rep : K → Prop) (lb ub : List (Fl K)) : Prop := ∀ a : K, (Fl.fin a ∈ lb ∨ Fl.fin a ∈ ub) → rep a

omit [Field K] in
theorem fin_of_finite {a : Fl K} (h : a.isFinite = true) : ∃ k, a = .fin k := by
  cases a <;> simp [Fl.isFinite] at h ⊢

variable {g : Gen K σ} {rep : K → Prop} {op : Fl.Ops K}

theorem wp_uniformReal (hg : g.Lawful rep) (c1 : Bool) {l u : Fl K} (hlu : l ≤ u) (hu : u ≠ .nan) (hl : l ≠ .nan)
    (s : σ) :
    Run.wp (uniformReal true c1 true g op l u)
      (fun v _ => (l.isFinite = true ∧ u.isFinite = true ∧ (op.sub u l).isFinite = true) ∧ l ≤ v ∧ v ≤ u)
      (fun e _ => e = .invalidArgument ∧
        ¬ (l.isFinite = true ∧ u.isFinite = true ∧ (op.sub u l).isFinite = true)) s := by
  have hgt : Fl.gt l u = false := (gt_false_iff hl hu).mpr hlu
  unfold uniformReal realChecks
  rw [Run.wp_bind]
  simp only [hgt, Bool.and_false, Bool.true_and]
  by_cases h1 : (!l.isFinite || !u.isFinite) = true
  · rw [if_pos h1, Run.wp_lift_throws]
    simp only [Bool.or_eq_true, Bool.not_eq_true'] at h1
    exact ⟨rfl, fun h => by rcases h1 with h1 | h1 <;> simp_all⟩
  · rw [if_neg h1, if_neg (by simp)]
    simp only [Bool.or_eq_true, Bool.not_eq_true', not_or, Bool.not_eq_false] at h1
    by_cases h2 : (op.sub u l).isFinite = true
    · rw [if_neg (by simp [h2]), Run.wp_lift_ok, Run.wp_ite]
      refine ⟨?_, ?_⟩
      · intro h; rw [Run.wp_pure]
        exact ⟨⟨h1.1, h1.2, h2⟩, le_rfl, hlu⟩
      · intro h
        obtain ⟨a, rfl⟩ := fin_of_finite h1.1
        obtain ⟨b, rfl⟩ := fin_of_finite h1.2
        refine Gen.wp_drawReal hg (by simpa using hlu) h2 ?_
        intro v e hv1 hv2
        exact ⟨⟨rfl, rfl, h2⟩, by simpa using hv1, by simpa using hv2⟩
    · rw [if_pos (by simpa using h2), Run.wp_lift_throws]
      exact ⟨rfl, fun h => h2 h.2.2⟩

variable [FloorRing K] [IsStrictOrderedRing K]

theorem toLongLong_int (z : ℤ) :
    toLongLong (Fl.fin (z : K)) = if z < -2 ^ 63 ∨ 2 ^ 63 - 1 < z then .throws .badCast else .ok z := by
  unfold toLongLong
  have : (if (0 : K) ≤ (z : K) then ⌊(z : K)⌋ else ⌈(z : K)⌉) = z := by split <;> simp
  simp only [this]

theorem toLongLongs_int (a b : ℤ) :
    toLongLongs (Fl.fin (a : K)) (Fl.fin (b : K)) =
      if (-2 ^ 63 ≤ a ∧ a ≤ 2 ^ 63 - 1) ∧ (-2 ^ 63 ≤ b ∧ b ≤ 2 ^ 63 - 1) then .ok (a, b)
      else .throws .invalidArgument := by
  unfold toLongLongs
  rw [toLongLong_int, toLongLong_int]
  by_cases h1 : a < -2 ^ 63 ∨ 2 ^ 63 - 1 < a <;> by_cases h2 : b < -2 ^ 63 ∨ 2 ^ 63 - 1 < b
  · rw [if_pos h1, if_pos h2]
    symm; apply if_neg; omega
  · rw [if_pos h1, if_neg h2]
    symm; apply if_neg; omega
  · rw [if_neg h1, if_pos h2]
    symm; apply if_neg; omega
  · rw [if_neg h1, if_neg h2]
    symm; apply if_pos; omega

theorem wp_uniformIntegral (hg : g.Lawful rep) (c1 c2 : Bool) {l u : Fl K} (hlu : l ≤ u) (hu : u ≠ .nan)
    (hl : l ≠ .nan) (hil : ∀ a : K, l = .fin a → ∃ z : ℤ, a = z) (hiu : ∀ a : K, u = .fin a → ∃ z : ℤ, a = z)
    (hrl : ∀ a : K, l = .fin a → rep a) (hru : ∀ a : K, u = .fin a → rep a) (s : σ) :
    Run.wp (uniformIntegral true c1 c2 g l u)
      (fun v _ => (l.isFinite = true ∧ u.isFinite = true ∧
          ∀ z : ℤ, (l = .fin (z : K) ∨ u = .fin (z : K)) → -2 ^ 63 ≤ z ∧ z ≤ 2 ^ 63 - 1) ∧
        l ≤ v ∧ v ≤ u ∧ ∃ z : ℤ, v = .fin (z : K))
      (fun e _ => e = .invalidArgument ∧ ¬ (l.isFinite = true ∧ u.isFinite = true ∧
          ∀ z : ℤ, (l = .fin (z : K) ∨ u = .fin (z : K)) → -2 ^ 63 ≤ z ∧ z ≤ 2 ^ 63 - 1)) s := by
  have hgt : Fl.gt l u = false := (gt_false_iff hl hu).mpr hlu
  unfold uniformIntegral intChecks
  rw [Run.wp_bind]
  simp only [hgt, Bool.and_false, Bool.true_and]
  by_cases h1 : (!l.isFinite || !u.isFinite) = true
  · rw [if_pos h1, Run.wp_lift_throws]
    simp only [Bool.or_eq_true, Bool.not_eq_true'] at h1
    exact ⟨rfl, fun h => by rcases h1 with h1 | h1 <;> simp_all⟩
  · rw [if_neg h1, if_neg (by simp)]
    simp only [Bool.or_eq_true, Bool.not_eq_true', not_or, Bool.not_eq_false] at h1
    obtain ⟨a, rfl⟩ := fin_of_finite h1.1
    obtain ⟨b, rfl⟩ := fin_of_finite h1.2
    obtain ⟨a, rfl⟩ := hil a rfl
    obtain ⟨b, rfl⟩ := hiu b rfl
    have ht : ∀ z : ℤ, Fl.eq (trunc (Fl.fin (z : K))) (.fin (z : K)) = true := by
      intro z
      have : truncK (z : K) = z := (truncK_eq_iff _).mpr ⟨z, rfl⟩
      simp [trunc, Fl.eq, this]
    rw [ht, ht, if_neg (by simp), Run.wp_lift_ok, Run.wp_bind, toLongLongs_int]
    have hab : a ≤ b := by simpa using hlu
    split
    · rename_i h2
      rw [Run.wp_lift_ok, Run.wp_bind]
      refine Gen.wp_drawInt hg hab ?_
      intro v e hv1 hv2
      rw [Run.wp_pure]
      obtain ⟨w, hw⟩ := hg.ofInt_int v
      have := hg.ofInt_mem a b v (hrl _ rfl) (hru _ rfl) hv1 hv2
      refine ⟨⟨rfl, rfl, ?_⟩, by simpa using this.1, by simpa using this.2, w, by rw [hw]⟩
      intro z hz
      rcases hz with hz | hz <;> simp at hz <;> omega
    · rename_i h2
      rw [Run.wp_lift_throws]
      refine ⟨rfl, fun h => h2 ⟨h.2.2 a (Or.inl rfl), h.2.2 b (Or.inr rfl)⟩⟩

/-- C46. With the bounds of a constructed problem (C19), for every engine and stream: if all components can be drawn the
result is a decision vector inside the bounds with an integral integer part; otherwise `std::invalid_argument` is
thrown. Nothing else happens; in particular a distribution is never built from bounds it is not defined for. -/
theorem C46_random_decision_vector (hg : g.Lawful rep) (lb ub : List (Fl K)) (nix : Nat) (hs : SaneBounds lb ub nix)
    (hr : Reps rep lb ub) (s : σ) :
    Run.wp (randomDecisionVector g op lb ub nix)
      (fun x _ => InBox lb ub nix x ∧ ∀ i < lb.length, Drawable op lb ub nix i)
      (fun e _ => e = .invalidArgument ∧ ¬ ∀ i < lb.length, Drawable op lb ub nix i) s := by
  have hlen := hs.len
  have hnix := hs.nixLe
  have hset : ∀ (out : List (Fl K)) (i : Nat) (v : Fl K) (hi : i < lb.length), out.length = lb.length →
      (∀ (j : Nat) (l u w : Fl K), j < i → lb[j]? = some l → ub[j]? = some u → out[j]? = some w →
        InRange l u (lb.length - nix ≤ j) w) →
      InRange lb[i] (ub[i]'(by omega)) (lb.length - nix ≤ i) v →
      ∀ (j : Nat) (l u w : Fl K), j < i + 1 → lb[j]? = some l → ub[j]? = some u → (out.set i v)[j]? = some w →
        InRange l u (lb.length - nix ≤ j) w := by
    intro out i v hi ho h hv j l u w hj hl hu hw
    rw [List.getElem?_set] at hw
    by_cases hij : i = j
    · subst hij
      rw [if_pos rfl, if_pos (by omega)] at hw
      cases hw
      rw [List.getElem?_eq_getElem hi] at hl
      rw [List.getElem?_eq_getElem (by omega)] at hu
      cases hl; cases hu; exact hv
    · rw [if_neg hij] at hw
      exact h j l u w (by omega) hl hu hw
  unfold randomDecisionVector
  simp only
  rw [Run.wp_bind]
  refine (Run.wp_range (E := fun e _ => e = .invalidArgument ∧ ¬ ∀ i < lb.length, Drawable op lb ub nix i)
    (fun k (out : List (Fl K)) _ => out.length = lb.length ∧ (∀ i < k, Drawable op lb ub nix i) ∧
      ∀ (j : Nat) (l u w : Fl K), j < k → lb[j]? = some l → ub[j]? = some u → out[j]? = some w →
        InRange l u (lb.length - nix ≤ j) w) _ _ _ ⟨by simp, by simp, by simp⟩ ?_).mono ?_ (fun _ _ h => h)
  · rintro i out s hi ⟨ho, hd, hb⟩
    have hi1 : i < lb.length := by omega
    have hi2 : i < ub.length := by omega
    unfold rdvReal
    rw [Run.wp_bind, Run.wp_lift_get hi1, Run.wp_bind, Run.wp_lift_get hi2, Run.wp_bind]
    obtain ⟨n1, n2, hle⟩ := hs.ordered i _ _ (List.getElem?_eq_getElem hi1) (List.getElem?_eq_getElem hi2)
    refine (wp_uniformReal hg false hle n2 n1 s).mono ?_ ?_
    · rintro v s ⟨hf, hv⟩
      rw [Run.wp_lift_set (by omega)]
      refine ⟨by simp [ho], ?_, hset out i v hi1 ho hb ⟨hv.1, hv.2, fun h => absurd h (by omega)⟩⟩
      intro j hj
      by_cases e : j = i
      · subst e
        intro l u hl hu
        rw [List.getElem?_eq_getElem hi1] at hl
        rw [List.getElem?_eq_getElem hi2] at hu
        cases hl; cases hu
        exact ⟨hf.1, hf.2.1, fun _ => hf.2.2, fun h => absurd h (by omega)⟩
      · exact hd j (by omega)
    · rintro e s ⟨he, hf⟩
      refine ⟨he, fun h => hf ?_⟩
      have := h i hi1 _ _ (List.getElem?_eq_getElem hi1) (List.getElem?_eq_getElem hi2)
      exact ⟨this.1, this.2.1, this.2.2.1 hi⟩
  · rintro out s ⟨ho, hd, hb⟩
    refine (Run.wp_range' (E := fun e _ => e = .invalidArgument ∧ ¬ ∀ i < lb.length, Drawable op lb ub nix i)
      (fun k (out : List (Fl K)) _ => out.length = lb.length ∧ (∀ i < k, Drawable op lb ub nix i) ∧
        ∀ (j : Nat) (l u w : Fl K), j < k → lb[j]? = some l → ub[j]? = some u → out[j]? = some w →
          InRange l u (lb.length - nix ≤ j) w) _ _ _ _ ⟨ho, hd, hb⟩ ?_).mono ?_ (fun _ _ h => h)
    · rintro i out s hm hi ⟨ho, hd, hb⟩
      have hi1 : i < lb.length := by omega
      have hi2 : i < ub.length := by omega
      unfold rdvInt
      rw [Run.wp_bind, Run.wp_lift_get hi1, Run.wp_bind, Run.wp_lift_get hi2, Run.wp_bind]
      obtain ⟨n1, n2, hle⟩ := hs.ordered i _ _ (List.getElem?_eq_getElem hi1) (List.getElem?_eq_getElem hi2)
      refine (wp_uniformIntegral hg false false hle n2 n1
        (fun a h => hs.intL i a hm (by rw [List.getElem?_eq_getElem hi1, h]))
        (fun a h => hs.intU i a hm (by rw [List.getElem?_eq_getElem hi2, h]))
        (fun a h => hr a (Or.inl (h ▸ List.getElem_mem hi1)))
        (fun a h => hr a (Or.inr (h ▸ List.getElem_mem hi2))) s).mono ?_ ?_
      · rintro v s ⟨hf, hv⟩
        rw [Run.wp_lift_set (by omega)]
        refine ⟨by simp [ho], ?_, hset out i v hi1 ho hb ⟨hv.1, hv.2.1, fun _ => hv.2.2⟩⟩
        intro j hj
        by_cases e : j = i
        · subst e
          intro l u hl hu
          rw [List.getElem?_eq_getElem hi1] at hl
          rw [List.getElem?_eq_getElem hi2] at hu
          cases hl; cases hu
          exact ⟨hf.1, hf.2.1, fun h => absurd h (by omega), fun _ => hf.2.2⟩
        · exact hd j (by omega)
      · rintro e s ⟨he, hf⟩
        refine ⟨he, fun h => hf ?_⟩
        have := h i hi1 _ _ (List.getElem?_eq_getElem hi1) (List.getElem?_eq_getElem hi2)
        exact ⟨this.1, this.2.1, this.2.2.2 hm⟩
    · rintro out s ⟨ho, hd, hb⟩
      have e : lb.length - nix + (lb.length - (lb.length - nix)) = lb.length := by omega
      rw [e] at hd hb
      refine ⟨⟨ho, ?_⟩, hd⟩
      intro j l u w hl hu hw
      exact hb j l u w (List.getElem?_eq_some_iff.mp hl).1 hl hu hw

example : SaneBounds [Fl.fin (0 : ℚ), .fin 1] [.fin 2, .fin 5] 1 := (C19_bounds _ _ _).1.mp (by decide +kernel)

example : (randomDecisionVector demoGen (Fl.exact ℚ) [.fin 0, .fin 1] [.fin 2, .fin 5] 1 [1 / 4, 3 / 4]).1 =
    .ok [.fin (1 / 2), .fin 5] := by decide +kernel

example : (randomDecisionVector demoGen (Fl.exact ℚ) [.fin 0, .fin 1] [.pinf, .fin 5] 1 [1 / 4, 3 / 4]).1 =
    .throws .invalidArgument := by decide +kernel

/-! ## C47 -/

/-- the first `N` entries of `out`, read in blocks of the size of the bounds, are inside the bounds -/
def BlocksOk (lb ub : List (Fl K)) (nix size N : Nat) (out : List (Fl K)) : Prop :=
  out.length = size ∧ ∀ (m : Nat) (l u w : Fl K), m < N → lb[m % lb.length]? = some l → ub[m % lb.length]? = some u →
    out[m]? = some w → InRange l u (lb.length - nix ≤ m % lb.length) w

omit [FloorRing K] [IsStrictOrderedRing K] in
theorem blocksOk_set {lb ub : List (Fl K)} {nix size N : Nat} {out : List (Fl K)} (h : BlocksOk lb ub nix size N out)
    {v l u : Fl K} (hl : lb[N % lb.length]? = some l) (hu : ub[N % lb.length]? = some u)
    (hv : InRange l u (lb.length - nix ≤ N % lb.length) v) : BlocksOk lb ub nix size (N + 1) (out.set N v) := by
  refine ⟨by simpa using h.1, ?_⟩
  intro m l' u' w hm hl' hu' hw
  rw [List.getElem?_set] at hw
  by_cases e : N = m
  · subst e
    rw [if_pos rfl] at hw
    split at hw
    · cases hw
      rw [hl] at hl'; rw [hu] at hu'; cases hl'; cases hu'; exact hv
    · cases hw
  · rw [if_neg e] at hw
    exact h.2 m l' u' w (by omega) hl' hu' hw

omit [FloorRing K] [IsStrictOrderedRing K] in
theorem chk_batchReal (lb ub : List (Fl K)) (nix : Nat) (hs : lb.length = ub.length) (i : Nat)
    (hi : i < lb.length - nix) : Chk (batchCheckReal op lb ub i) (Drawable op lb ub nix i) := by
  have hi1 : i < lb.length := by omega
  have hi2 : i < ub.length := by omega
  unfold batchCheckReal realChecks
  rw [Outcome.get_of_lt hi1, Outcome.get_of_lt hi2]
  simp only [Outcome.bind_ok, Bool.true_and, Bool.false_and]
  refine Chk.congr (Chk.ite_throw (P := True ∧ (op.sub ub[i] lb[i]).isFinite = true) (fun h1 => ?_)) ?_
  · rw [if_neg (by simp)]
    exact Chk.congr (Chk.ite_throw (fun _ => Chk.pass)) (by simp)
  · unfold Drawable
    rw [List.getElem?_eq_getElem hi1, List.getElem?_eq_getElem hi2]
    simp only [Option.some.injEq]
    constructor
    · rintro ⟨h1, -, h2⟩ l u rfl rfl
      simp only [Bool.or_eq_true, Bool.not_eq_true', not_or, Bool.not_eq_false] at h1
      exact ⟨h1.1, h1.2, fun _ => h2, fun h => absurd h (by omega)⟩
    · intro h
      obtain ⟨h1, h2, h3, -⟩ := h _ _ rfl rfl
      exact ⟨by simp [h1, h2], trivial, h3 hi⟩

theorem chk_batchInt (lb ub : List (Fl K)) (nix : Nat) (hs : SaneBounds lb ub nix) (i : Nat)
    (hi : lb.length - nix ≤ i) (hi1 : i < lb.length) :
    Chk (batchCheckInt lb ub i) (Drawable op lb ub nix i) := by
  have hi2 : i < ub.length := by have := hs.len; omega
  unfold batchCheckInt intChecks
  rw [Outcome.get_of_lt hi1, Outcome.get_of_lt hi2]
  simp only [Outcome.bind_ok, Bool.true_and, Bool.false_and]
  have hD : Drawable op lb ub nix i ↔ (lb[i].isFinite = true ∧ ub[i].isFinite = true) ∧
      ∀ z : ℤ, (lb[i] = .fin (z : K) ∨ ub[i] = .fin (z : K)) → -2 ^ 63 ≤ z ∧ z ≤ 2 ^ 63 - 1 := by
    unfold Drawable
    rw [List.getElem?_eq_getElem hi1, List.getElem?_eq_getElem hi2]
    simp only [Option.some.injEq]
    constructor
    · intro h
      obtain ⟨h1, h2, -, h4⟩ := h _ _ rfl rfl
      exact ⟨⟨h1, h2⟩, h4 hi⟩
    · rintro ⟨⟨h1, h2⟩, h4⟩ l u rfl rfl
      exact ⟨h1, h2, fun h => absurd h (by omega), fun _ => h4⟩
  refine Chk.congr (Chk.seq (P := lb[i].isFinite = true ∧ ub[i].isFinite = true) ?_ (fun h1 => ?_)) hD.symm
  · refine Chk.congr (Chk.ite_throw (P := True) (fun h1 => ?_)) (by simp)
    rw [if_neg (by simp), if_neg (by simp)]
    exact Chk.pass
  · obtain ⟨a, ha⟩ := fin_of_finite h1.1
    obtain ⟨b, hb⟩ := fin_of_finite h1.2
    obtain ⟨a, rfl⟩ := hs.intL i a hi (by rw [List.getElem?_eq_getElem hi1, ha])
    obtain ⟨b, rfl⟩ := hs.intU i b hi (by rw [List.getElem?_eq_getElem hi2, hb])
    simp only [ha, hb, toLongLongs_int]
    split
    · rename_i h
      refine Or.inl ⟨rfl, ?_⟩
      intro z hz
      rcases hz with hz | hz <;> simp at hz <;> omega
    · rename_i h
      exact Or.inr ⟨rfl, fun h' => h ⟨h' a (Or.inl rfl), h' b (Or.inr rfl)⟩⟩

/-- C47. With the bounds of a constructed problem, for every engine and stream: `std::overflow_error` exactly when
`n * nx` does not fit in 64 bits; otherwise `std::invalid_argument` exactly when some component cannot be drawn;
otherwise `n * nx` values, and each of the `n` consecutive blocks is a decision vector inside the bounds. -/
theorem C47_batch (hg : g.Lawful rep) (lb ub : List (Fl K)) (nix n : Nat) (hs : SaneBounds lb ub nix)
    (hr : Reps rep lb ub) (s : σ) :
    Run.wp (batchRandomDecisionVector g op lb ub nix n)
      (fun x _ => x.length = n * lb.length ∧ (∀ k < n, InBox lb ub nix ((x.drop (k * lb.length)).take lb.length)) ∧
        n * lb.length < 2 ^ 64 ∧ ∀ i < lb.length, Drawable op lb ub nix i)
      (fun e _ => (e = .overflowError ∧ 2 ^ 64 ≤ n * lb.length) ∨
        (e = .invalidArgument ∧ n * lb.length < 2 ^ 64 ∧ ¬ ∀ i < lb.length, Drawable op lb ub nix i)) s := by
  have hlen := hs.len
  have hnix := hs.nixLe
  have hnx : 0 < lb.length := List.length_pos_iff.mpr hs.nonempty
  unfold batchRandomDecisionVector
  simp only
  rw [if_neg (by omega)]
  by_cases hov : n > sizeMax / lb.length
  · rw [if_pos hov, Run.wp_throw]
    refine Or.inl ⟨rfl, ?_⟩
    have := (Nat.div_lt_iff_lt_mul hnx).mp hov
    unfold sizeMax at this; omega
  rw [if_neg hov]
  have hsz : n * lb.length < 2 ^ 64 := by
    have : ¬ (sizeMax < n * lb.length) := fun h => hov ((Nat.div_lt_iff_lt_mul hnx).mpr h)
    unfold sizeMax at this; omega
  have c1 : Chk ((List.range (lb.length - nix)).forM (batchCheckReal op lb ub)) _ :=
    Chk.forM (fun i hi => chk_batchReal lb ub nix hlen i (List.mem_range.mp hi))
  have c2 : Chk ((List.range' (lb.length - nix) (lb.length - (lb.length - nix))).forM (batchCheckInt lb ub)) _ :=
    Chk.forM (fun i hi => by
      rw [List.mem_range'_1] at hi
      exact chk_batchInt (op := op) lb ub nix hs i hi.1 (by omega))
  have hDall : (∀ i ∈ List.range (lb.length - nix), Drawable op lb ub nix i) →
      (∀ i ∈ List.range' (lb.length - nix) (lb.length - (lb.length - nix)), Drawable op lb ub nix i) →
      ∀ i < lb.length, Drawable op lb ub nix i := by
    intro h1 h2 i hi
    by_cases h : i < lb.length - nix
    · exact h1 i (List.mem_range.mpr h)
    · exact h2 i (by rw [List.mem_range'_1]; omega)
  rw [Run.wp_bind]
  rcases c1 with ⟨h1, h1'⟩ | ⟨h1, h1'⟩
  swap
  · rw [h1, Run.wp_lift_throws]
    exact Or.inr ⟨rfl, hsz, fun h => h1' (fun i hi => h i (by rw [List.mem_range] at hi; omega))⟩
  rw [h1, Run.wp_lift_ok, Run.wp_bind]
  rcases c2 with ⟨h2, h2'⟩ | ⟨h2, h2'⟩
  swap
  · rw [h2, Run.wp_lift_throws]
    exact Or.inr ⟨rfl, hsz, fun h => h2' (fun i hi => h i (by rw [List.mem_range'_1] at hi; omega))⟩
  rw [h2, Run.wp_lift_ok]
  have hD := hDall h1' h2'
  have hw : w64 (lb.length * n) = n * lb.length := by
    unfold w64; rw [Nat.mul_comm]; exact Nat.mod_eq_of_lt hsz
  have hdiv : (n * lb.length + lb.length - 1) / lb.length = n := by
    rw [Nat.div_eq_iff hnx]
    constructor
    · have : n * lb.length + lb.length - 1 = n * lb.length + (lb.length - 1) := by omega
      omega
    · omega
  rw [hw, hdiv]
  refine (Run.wp_range (E := fun _ _ => False)
    (fun k (out : List (Fl K)) _ => BlocksOk lb ub nix (n * lb.length) (k * lb.length) out) n _ s
    ⟨by simp, by simp⟩ ?_).mono ?_ (fun _ _ h => h.elim)
  · intro k out s hk hb
    have hkn : k * lb.length + lb.length ≤ n * lb.length := by
      have := Nat.mul_le_mul_right lb.length (show k + 1 ≤ n from hk)
      rw [Nat.add_mul] at this; omega
    have hmod : ∀ j < lb.length, (k * lb.length + j) % lb.length = j := by
      intro j hj
      rw [Nat.mul_comm, Nat.mul_add_mod, Nat.mod_eq_of_lt hj]
    unfold batchBlock
    simp only
    rw [Run.wp_bind]
    refine (Run.wp_range (E := fun _ _ => False)
      (fun j (out : List (Fl K)) _ => BlocksOk lb ub nix (n * lb.length) (k * lb.length + j) out) _ _ _
      (by simpa using hb) ?_).mono ?_ (fun _ _ h => h.elim)
    · intro i out s hi hb
      have hi1 : i < lb.length := by omega
      have hi2 : i < ub.length := by omega
      obtain ⟨f1, f2, f3, -⟩ := hD i hi1 _ _ (List.getElem?_eq_getElem hi1) (List.getElem?_eq_getElem hi2)
      obtain ⟨n1, n2, hle⟩ := hs.ordered i _ _ (List.getElem?_eq_getElem hi1) (List.getElem?_eq_getElem hi2)
      unfold batchReal
      rw [Run.wp_bind, Run.wp_lift_get hi1, Run.wp_bind, Run.wp_lift_get hi2, Run.wp_bind]
      have hfin : ∀ (v : Fl K) (s : σ), lb[i] ≤ v → v ≤ ub[i] →
          Run.wp (Run.lift (Outcome.set out (k * lb.length + i) v))
            (fun out _ => BlocksOk lb ub nix (n * lb.length) (k * lb.length + (i + 1)) out) (fun _ _ => False) s := by
        intro v s hv1 hv2
        rw [Run.wp_lift_set (by rw [hb.1]; omega)]
        rw [← Nat.add_assoc]
        refine blocksOk_set hb (l := lb[i]) (u := ub[i]) ?_ ?_ ⟨hv1, hv2, ?_⟩
        · rw [hmod i hi1]; exact List.getElem?_eq_getElem hi1
        · rw [hmod i hi1]; exact List.getElem?_eq_getElem hi2
        · rw [hmod i hi1]; intro h; omega
      unfold drawOrEqual
      rw [Run.wp_ite]
      refine ⟨fun _ => by rw [Run.wp_pure]; exact hfin _ _ le_rfl hle, fun _ => ?_⟩
      obtain ⟨a, ha⟩ := fin_of_finite f1
      obtain ⟨b, hb'⟩ := fin_of_finite f2
      have f3 := f3 hi
      rw [ha, hb'] at f3 hle hfin ⊢
      refine Gen.wp_drawReal hg (by simpa using hle) f3 ?_
      intro v e hv1 hv2
      exact hfin _ _ (by simpa using hv1) (by simpa using hv2)
    · intro out s hb
      refine (Run.wp_range' (E := fun _ _ => False)
        (fun j (out : List (Fl K)) _ => BlocksOk lb ub nix (n * lb.length) (k * lb.length + j) out) _ _ _ _
        hb ?_).mono ?_ (fun _ _ h => h.elim)
      · intro i out s hm hi hb
        have hi1 : i < lb.length := by omega
        have hi2 : i < ub.length := by omega
        obtain ⟨f1, f2, -, f3⟩ := hD i hi1 _ _ (List.getElem?_eq_getElem hi1) (List.getElem?_eq_getElem hi2)
        obtain ⟨n1, n2, hle⟩ := hs.ordered i _ _ (List.getElem?_eq_getElem hi1) (List.getElem?_eq_getElem hi2)
        obtain ⟨a, ha⟩ := fin_of_finite f1
        obtain ⟨b, hb'⟩ := fin_of_finite f2
        obtain ⟨a, rfl⟩ := hs.intL i a hm (by rw [List.getElem?_eq_getElem hi1, ha])
        obtain ⟨b, rfl⟩ := hs.intU i b hm (by rw [List.getElem?_eq_getElem hi2, hb'])
        have hra : rep (a : K) := hr _ (Or.inl (ha ▸ List.getElem_mem hi1))
        have hrb : rep (b : K) := hr _ (Or.inr (hb' ▸ List.getElem_mem hi2))
        have fa := f3 hm a (Or.inl ha)
        have fb := f3 hm b (Or.inr hb')
        unfold batchInt
        rw [Run.wp_bind, Run.wp_lift_get hi1, Run.wp_bind, Run.wp_lift_get hi2, Run.wp_bind]
        have ca : castLongLong (Fl.fin (a : K)) = .ok a := by
          unfold castLongLong; rw [toLongLong_int, if_neg (by omega)]
        have cb : castLongLong (Fl.fin (b : K)) = .ok b := by
          unfold castLongLong; rw [toLongLong_int, if_neg (by omega)]
        rw [ha, hb', ca, Run.wp_lift_ok, Run.wp_bind, cb, Run.wp_lift_ok, Run.wp_bind]
        refine Gen.wp_drawInt hg (by rw [ha, hb'] at hle; simpa using hle) ?_
        intro v e hv1 hv2
        rw [Run.wp_lift_set (by rw [hb.1]; omega)]
        rw [← Nat.add_assoc]
        have := hg.ofInt_mem a b v hra hrb hv1 hv2
        obtain ⟨w, hw⟩ := hg.ofInt_int v
        refine blocksOk_set hb (l := lb[i]) (u := ub[i]) ?_ ?_ ⟨?_, ?_, fun _ => ⟨w, by rw [hw]⟩⟩
        · rw [hmod i hi1]; exact List.getElem?_eq_getElem hi1
        · rw [hmod i hi1]; exact List.getElem?_eq_getElem hi2
        · rw [ha]; simpa using this.1
        · rw [hb']; simpa using this.2
      · intro out s hb
        have e : k * lb.length + (lb.length - nix + (lb.length - (lb.length - nix))) = (k + 1) * lb.length := by
          rw [Nat.add_mul]; omega
        rw [e] at hb; exact hb
  · rintro out s ⟨ho, hb⟩
    refine ⟨ho, ?_, hsz, hD⟩
    intro k hk
    have hkn : k * lb.length + lb.length ≤ n * lb.length := by
      have := Nat.mul_le_mul_right lb.length (show k + 1 ≤ n from hk)
      rw [Nat.add_mul] at this; omega
    refine ⟨by simp [ho]; omega, ?_⟩
    intro i l u v hl hu hv
    have hi : i < lb.length := (List.getElem?_eq_some_iff.mp hl).1
    rw [List.getElem?_take, if_pos hi, List.getElem?_drop] at hv
    have hmod : (k * lb.length + i) % lb.length = i := by
      rw [Nat.mul_comm, Nat.mul_add_mod, Nat.mod_eq_of_lt hi]
    have := hb (k * lb.length + i) l u v (by omega) (by rw [hmod]; exact hl) (by rw [hmod]; exact hu) hv
    rw [hmod] at this
    exact this

example : (batchRandomDecisionVector demoGen (Fl.exact ℚ) [.fin 0, .fin 1] [.fin 2, .fin 5] 1 2
    [1 / 4, 3 / 4, 1 / 2, 0]).1 = .ok [.fin (1 / 2), .fin 5, .fin 1, .fin 1] := by decide +kernel

example : (batchRandomDecisionVector demoGen (Fl.exact ℚ) [.fin 0, .fin 1] [.fin 2, .fin 5] 1 (2 ^ 63)
    []).1 = .throws .overflowError := by decide +kernel

end Verif.Props
