import Verif.Model.Problem
import Verif.Base.Check

/-!
# C19, C22: problem construction, sparsity patterns
-/

set_option autoImplicit false

namespace Verif.Props

open Verif Prob

section c19
variable {K : Type} [Field K] [LinearOrder K]

/-- What the documentation demands of the bounds. -/
structure SaneBounds (lb ub : List (Fl K)) (nix : Nat) : Prop where
  nonempty : lb ≠ []
  len : lb.length = ub.length
  ordered : ∀ (i : Nat) (l u : Fl K), lb[i]? = some l → ub[i]? = some u → l ≠ .nan ∧ u ≠ .nan ∧ l ≤ u
  nixLe : nix ≤ lb.length
  intL : ∀ (i : Nat) (a : K), lb.length - nix ≤ i → lb[i]? = some (.fin a) → ∃ z : ℤ, a = z
  intU : ∀ (i : Nat) (a : K), lb.length - nix ≤ i → ub[i]? = some (.fin a) → ∃ z : ℤ, a = z

variable [FloorRing K] [IsStrictOrderedRing K]

theorem truncK_eq_iff (a : K) : truncK a = a ↔ ∃ z : ℤ, a = z := by
  constructor
  · intro h
    unfold truncK at h
    split at h
    · exact ⟨_, h.symm⟩
    · exact ⟨_, h.symm⟩
  · rintro ⟨z, rfl⟩
    unfold truncK
    split <;> simp

theorem int_check_iff (l : Fl K) :
    (l.isFinite && !(Fl.eq l (trunc l))) = false ↔ ∀ a, l = .fin a → ∃ z : ℤ, a = z := by
  cases l with
  | fin a =>
    simp only [Fl.isFinite, trunc, Fl.eq, Bool.true_and, Bool.not_eq_false', decide_eq_true_eq, Fl.fin.injEq,
      forall_eq']
    rw [eq_comm, truncK_eq_iff]
  | _ => simp [Fl.isFinite]

omit [Field K] [FloorRing K] [IsStrictOrderedRing K] in
theorem gt_false_iff {l u : Fl K} (hl : l ≠ .nan) (hu : u ≠ .nan) : Fl.gt l u = false ↔ l ≤ u := by
  rw [← not_lt, ← Fl.lessThanF_iff]
  cases l <;> cases u <;> simp_all [Fl.gt, Fl.lt, Fl.lessThanF, Fl.isNan]

/-- C19 (bounds). `check_problem_bounds` accepts exactly the sane bounds and throws `std::invalid_argument` on
everything else. -/
theorem C19_bounds (lb ub : List (Fl K)) (nix : Nat) :
    (checkBounds lb ub nix = .ok () ↔ SaneBounds lb ub nix) ∧
    (checkBounds lb ub nix = .throws .invalidArgument ↔ ¬ SaneBounds lb ub nix) := by
  suffices h : Chk (checkBounds lb ub nix) (SaneBounds lb ub nix) from ⟨h.ok_iff, h.throws_iff⟩
  have hAt : lb.length = ub.length → ∀ i ∈ List.range lb.length, Chk (checkBoundsAt lb ub i)
      (∀ l u : Fl K, lb[i]? = some l → ub[i]? = some u → l ≠ .nan ∧ u ≠ .nan ∧ l ≤ u) := by
    intro hlen i hi
    rw [List.mem_range] at hi
    unfold checkBoundsAt
    rw [Outcome.get_of_lt hi, Outcome.get_of_lt (hlen ▸ hi : i < ub.length)]
    refine Chk.congr (Chk.ite_throw (fun h1 => Chk.ite_throw (fun h2 => Chk.pass))) ?_
    rw [List.getElem?_eq_getElem hi, List.getElem?_eq_getElem (hlen ▸ hi : i < ub.length)]
    simp only [Option.some.injEq]
    constructor
    · rintro ⟨h1, h2, -⟩ l u rfl rfl
      have n1 : lb[i] ≠ .nan := fun e => h1 (by simp [e, Fl.isNan])
      have n2 : ub[i] ≠ .nan := fun e => h1 (by simp [e, Fl.isNan])
      exact ⟨n1, n2, (gt_false_iff n1 n2).mp (by simpa using h2)⟩
    · intro h
      obtain ⟨n1, n2, h3⟩ := h _ _ rfl rfl
      refine ⟨?_, ?_, trivial⟩
      · cases hl : lb[i] <;> cases hu : ub[i] <;> simp_all [Fl.isNan]
      · rw [(gt_false_iff n1 n2).mpr h3]; simp
  have hInt : lb.length = ub.length → nix ≤ lb.length →
      ∀ i ∈ List.range' (lb.length - nix) nix, Chk (checkIntAt lb ub i)
      ((∀ a : K, lb[i]? = some (.fin a) → ∃ z : ℤ, a = z) ∧ (∀ a : K, ub[i]? = some (.fin a) → ∃ z : ℤ, a = z)) := by
    intro hlen hn i hi
    rw [List.mem_range'_1] at hi
    have hi' : i < lb.length := by omega
    have hi2 : i < ub.length := by omega
    unfold checkIntAt
    rw [Outcome.get_of_lt hi', Outcome.get_of_lt hi2]
    refine Chk.congr (Chk.ite_throw (fun h1 => Chk.ite_throw (fun h2 => Chk.pass))) ?_
    rw [List.getElem?_eq_getElem hi', List.getElem?_eq_getElem hi2]
    simp only [Bool.not_eq_true, int_check_iff, Option.some.injEq, and_true]
  unfold checkBounds
  by_cases h0 : lb.length = 0
  · rw [if_pos h0]
    exact Or.inr ⟨rfl, fun h => h.nonempty (List.length_eq_zero_iff.mp h0)⟩
  rw [if_neg h0]
  by_cases h1 : lb.length = ub.length
  swap
  · rw [if_pos h1]
    exact Or.inr ⟨rfl, fun h => h1 h.len⟩
  rw [if_neg (by simpa using h1)]
  have hne : lb ≠ [] := fun e => h0 (by simp [e])
  refine Chk.congr (Q := SaneBounds lb ub nix) (Chk.seq (Chk.forM (hAt h1)) (fun hord => ?_)) (Iff.rfl.trans ?_)
    (P := (∀ i ∈ List.range lb.length, ∀ l u : Fl K, lb[i]? = some l → ub[i]? = some u →
        l ≠ .nan ∧ u ≠ .nan ∧ l ≤ u) ∧ (nix ≤ lb.length ∧
      (∀ (i : Nat) (a : K), lb.length - nix ≤ i → lb[i]? = some (.fin a) → ∃ z : ℤ, a = z) ∧
      (∀ (i : Nat) (a : K), lb.length - nix ≤ i → ub[i]? = some (.fin a) → ∃ z : ℤ, a = z)))
  · by_cases hn : nix = 0
    · rw [if_neg (by simpa using hn)]
      refine Or.inl ⟨rfl, by omega, ?_, ?_⟩
      · intro i a hi h
        have := (List.getElem?_eq_some_iff.mp h).1; omega
      · intro i a hi h
        have := (List.getElem?_eq_some_iff.mp h).1; omega
    · rw [if_pos hn]
      refine Chk.congr (Chk.ite_throw (fun hgt => Chk.forM (hInt h1 (by omega)))) ?_
      constructor
      · rintro ⟨hle, h⟩
        refine ⟨by omega, ?_, ?_⟩
        · intro i a hi h'
          have := (List.getElem?_eq_some_iff.mp h').1
          exact (h i (by rw [List.mem_range'_1]; omega)).1 a h'
        · intro i a hi h'
          have := (List.getElem?_eq_some_iff.mp h').1
          exact (h i (by rw [List.mem_range'_1]; omega)).2 a h'
      · rintro ⟨hle, ha, hb⟩
        refine ⟨by omega, ?_⟩
        intro i hi
        rw [List.mem_range'_1] at hi
        exact ⟨fun a h => ha i a hi.1 h, fun a h => hb i a hi.1 h⟩
  · constructor
    · rintro ⟨ho, hn, ha, hb⟩
      refine ⟨hne, h1, ?_, hn, ha, hb⟩
      intro i l u hl hu
      exact ho i (List.mem_range.mpr (List.getElem?_eq_some_iff.mp hl).1) l u hl hu
    · intro h
      exact ⟨fun i _ l u hl hu => h.ordered i l u hl hu, h.nixLe, h.intL, h.intU⟩

theorem construct_inv {u : Udp K} {p : Problem K} (h : construct u = .ok p) :
    SaneBounds u.lb u.ub u.nix ∧ 0 < u.nobj ∧ u.nobj + u.nec + u.nic < 2 ^ 64 ∧
    gsDimOf u.gs (u.nobj + u.nec + u.nic) u.lb.length = .ok p.gsDim ∧
    hsDimOf u.hs (u.nobj + u.nec + u.nic) u.lb.length = .ok p.hsDim ∧
    p.lb = u.lb ∧ p.ub = u.ub ∧ p.nix = u.nix ∧ p.nobj = u.nobj ∧ p.nec = u.nec ∧ p.nic = u.nic ∧
    p.cTol = List.replicate (u.nec + u.nic) (.fin 0) := by
  unfold construct at h
  split at h
  · cases h
  · rcases hb : checkBounds u.lb u.ub u.nix with a | e | _ | _ <;> rw [hb] at h
    · have hs := (C19_bounds u.lb u.ub u.nix).1.mp hb
      simp only [Outcome.bind_ok] at h
      split at h
      · cases h
      split at h
      · cases h
      split at h
      · cases h
      split at h
      · cases h
      rcases hg : gsDimOf u.gs (u.nobj + u.nec + u.nic) u.lb.length with g | e | _ | _ <;> rw [hg] at h
      · rcases hh : hsDimOf u.hs (u.nobj + u.nec + u.nic) u.lb.length with d | e | _ | _ <;> rw [hh] at h
        · simp only [Outcome.bind_ok, Outcome.ok.injEq] at h
          subst h
          rename_i q1 q2 q3 q4 q5
          simp only [sizeMax] at q3 q4 q5
          exact ⟨hs, by omega, by omega, rfl, rfl, rfl, rfl, rfl, rfl, rfl, rfl, rfl⟩
        all_goals cases h
      all_goals cases h
    all_goals cases h

/-- C19 (construction, soundness). A constructed problem has sane bounds, at least one objective and a fitness
dimension that fits in `size_type`, and its members are those of the user-defined problem. -/
theorem C19_construct_sound (u : Udp K) (p : Problem K) (h : construct u = .ok p) :
    SaneBounds u.lb u.ub u.nix ∧ 0 < u.nobj ∧ u.nobj + u.nec + u.nic < 2 ^ 64 ∧
    p.lb = u.lb ∧ p.ub = u.ub ∧ p.nix = u.nix ∧ p.nobj = u.nobj ∧ p.nec = u.nec ∧ p.nic = u.nic ∧
    p.cTol = List.replicate (u.nec + u.nic) (.fin 0) := by
  obtain ⟨h1, h2, h3, _, _, h4⟩ := construct_inv h
  exact ⟨h1, h2, h3, h4⟩

/-- C19 (construction, completeness). Without user sparsities, sane bounds, at least one objective and dimensions
for which the dense patterns fit in memory are accepted. -/
theorem C19_construct_complete (u : Udp K) (hs : SaneBounds u.lb u.ub u.nix) (hobj : 0 < u.nobj)
    (hgs : u.gs = none) (hhs : u.hs = none)
    (h1 : u.nobj ≤ (2 ^ 64 - 1) / 3) (h2 : u.nec ≤ (2 ^ 64 - 1) / 3) (h3 : u.nic ≤ (2 ^ 64 - 1) / 3)
    (hg : u.lb.length * (u.nobj + u.nec + u.nic) < 2 ^ 64) (hh : u.lb.length ≤ 2 ^ 32) :
    ∃ p, construct u = .ok p := by
  unfold construct
  rw [if_neg (by have := hs.nixLe; omega), (C19_bounds u.lb u.ub u.nix).1.mpr hs]
  simp only [Outcome.bind_ok]
  rw [if_neg (by omega), if_neg (by simp only [sizeMax]; omega), if_neg (by simp only [sizeMax]; omega),
    if_neg (by simp only [sizeMax]; omega)]
  rw [hgs, hhs]
  simp only [gsDimOf, hsDimOf]
  rw [if_neg, if_neg]
  · exact ⟨_, rfl⟩
  · simp only [sizeMax]
    rintro (h | h)
    · omega
    · have : (2 ^ 64 - 1) / (2 ^ 32 + 1) ≤ (2 ^ 64 - 1) / (u.lb.length + 1) :=
        Nat.div_le_div_left (by omega) (by omega)
      have e : (2 ^ 64 - 1) / (2 ^ 32 + 1) = 2 ^ 32 - 1 := by norm_num
      omega
  · simp only [sizeMax, not_lt, gt_iff_lt]
    rw [Nat.le_div_iff_mul_le (by omega)]
    omega

/-- a mixed-integer problem with infinite bounds -/
example : SaneBounds [.ninf, .fin (1 / 2 : ℚ), .fin 0] [.pinf, .fin (3 / 4), .fin 5] 1 :=
  (C19_bounds _ _ _).1.mp (by decide +kernel)

example : ∃ p, construct (K := ℚ) ⟨[.ninf, .fin (1 / 2), .fin 0], [.pinf, .fin (3 / 4), .fin 5], 1, 2, 1, 0, none, none⟩
    = .ok p := by
  refine C19_construct_complete _ ((C19_bounds _ _ _).1.mp (by decide +kernel)) ?_ rfl rfl ?_ ?_ ?_ ?_ ?_ <;> norm_num

end c19

/-! ## C22 -/

/-- lexicographic order of index pairs -/
def LexLt (a b : Nat × Nat) : Prop := a.1 < b.1 ∨ (a.1 = b.1 ∧ a.2 < b.2)

theorem pairLt_iff (a b : Nat × Nat) : pairLt a b = true ↔ LexLt a b := by
  simp only [pairLt, LexLt, Bool.or_eq_true, decide_eq_true_eq, Bool.and_eq_true, Bool.not_eq_true',
    decide_eq_false_iff_not]
  omega

theorem lexLt_trans {a b c : Nat × Nat} (h1 : LexLt a b) (h2 : LexLt b c) : LexLt a c := by
  simp only [LexLt] at *; omega

theorem checkPattern_some {bad : Nat × Nat → Bool} (l : List (Nat × Nat)) :
    ∀ q, Chk (checkPattern bad (some q) l) ((∀ p ∈ l, bad p = false) ∧ (q :: l).Pairwise LexLt) := by
  induction l with
  | nil => intro q; exact Or.inl ⟨rfl, by simp, by simp⟩
  | cons p ps ih =>
    intro q
    rw [checkPattern]
    refine Chk.congr (Chk.ite_throw (fun h1 => Chk.ite_throw (fun h2 => ih p))) ?_
    simp only [Bool.not_eq_true, Bool.not_eq_eq_eq_not, Bool.not_true]
    constructor
    · rintro ⟨hb, hl, hr, hp⟩
      refine ⟨List.forall_mem_cons.mpr ⟨hb, hr⟩, ?_⟩
      rw [List.pairwise_cons]
      refine ⟨?_, hp⟩
      have hl' : LexLt q p := by
        by_contra h
        exact hl (by rw [← Bool.not_eq_true, pairLt_iff]; exact h)
      intro a ha
      rcases List.mem_cons.mp ha with rfl | ha
      · exact hl'
      · exact lexLt_trans hl' ((List.pairwise_cons.mp hp).1 a ha)
    · rintro ⟨hb, hp⟩
      obtain ⟨h1, h2⟩ := List.pairwise_cons.mp hp
      have hl : pairLt q p = true := (pairLt_iff q p).mpr (h1 p (by simp))
      refine ⟨hb p (by simp), by simp [hl], fun a ha => hb a (by simp [ha]), h2⟩

theorem checkPattern_none {bad : Nat × Nat → Bool} (l : List (Nat × Nat)) :
    Chk (checkPattern bad none l) ((∀ p ∈ l, bad p = false) ∧ l.Pairwise LexLt) := by
  cases l with
  | nil => exact Or.inl ⟨rfl, by simp, by simp⟩
  | cons p ps =>
    rw [checkPattern]
    refine Chk.congr (Chk.ite_throw (fun h1 => checkPattern_some ps p)) ?_
    simp only [Bool.not_eq_true, List.forall_mem_cons, and_assoc]

/-- A usable gradient pattern: pairs (fitness component, variable), each at most once, in ascending order. -/
def GradPattern (nf nx : Nat) (l : List (Nat × Nat)) : Prop :=
  (∀ p ∈ l, p.1 < nf ∧ p.2 < nx) ∧ l.Pairwise LexLt

/-- A usable hessian pattern: pairs of the lower triangle, each at most once, in ascending order. -/
def HessPattern (nx : Nat) (l : List (Nat × Nat)) : Prop :=
  (∀ p ∈ l, p.1 < nx ∧ p.2 ≤ p.1) ∧ l.Pairwise LexLt

theorem chk_grad (nf nx : Nat) (l : List (Nat × Nat)) :
    Chk (checkGradientSparsity nf nx l) (GradPattern nf nx l) := by
  refine (checkPattern_none l).congr ?_
  simp only [GradPattern, Bool.or_eq_false_iff, decide_eq_false_iff_not, not_le, ge_iff_le]

theorem chk_hess (nx : Nat) (l : List (Nat × Nat)) :
    Chk (checkHessianSparsity nx l) (HessPattern nx l) := by
  refine (checkPattern_none l).congr ?_
  simp only [HessPattern, Bool.or_eq_false_iff, decide_eq_false_iff_not, not_le, not_lt, ge_iff_le, gt_iff_lt]

theorem lex_nodup {l : List (Nat × Nat)} (h : l.Pairwise LexLt) : l.Nodup :=
  h.imp (fun {a b} hab e => by subst e; simp [LexLt] at hab)

/-- C22 (user patterns). The checks accept exactly the usable patterns (which have no duplicates) and throw
`std::invalid_argument` on all others. -/
theorem C22_checks (nf nx : Nat) (l : List (Nat × Nat)) (hs : List (List (Nat × Nat))) :
    (checkGradientSparsity nf nx l = .ok () ↔ GradPattern nf nx l) ∧
    (checkGradientSparsity nf nx l = .throws .invalidArgument ↔ ¬ GradPattern nf nx l) ∧
    (checkHessiansSparsity nf nx hs = .ok () ↔ hs.length = nf ∧ ∀ h ∈ hs, HessPattern nx h) ∧
    (checkHessiansSparsity nf nx hs = .throws .invalidArgument ↔
      ¬ (hs.length = nf ∧ ∀ h ∈ hs, HessPattern nx h)) ∧
    (GradPattern nf nx l → l.Nodup) ∧ (HessPattern nx l → l.Nodup) := by
  have h : Chk (checkHessiansSparsity nf nx hs) (hs.length = nf ∧ ∀ h ∈ hs, HessPattern nx h) := by
    unfold checkHessiansSparsity
    refine Chk.congr (Chk.ite_throw (fun _ => Chk.forM (fun a _ => chk_hess nx a))) ?_
    simp
  exact ⟨(chk_grad nf nx l).ok_iff, (chk_grad nf nx l).throws_iff, h.ok_iff, h.throws_iff,
    fun h => lex_nodup h.2, fun h => lex_nodup h.2⟩

theorem pairwise_flatMap_lex (m : Nat → Nat) (n : Nat) :
    ((List.range n).flatMap (fun j => (List.range (m j)).map (fun i => (j, i)))).Pairwise LexLt := by
  rw [List.pairwise_flatMap]
  constructor
  · intro j _
    rw [List.pairwise_map]
    exact List.pairwise_lt_range.imp (fun {a b} h => Or.inr ⟨rfl, h⟩)
  · refine List.pairwise_lt_range.imp (fun {a b} h => ?_)
    intro x hx y hy
    obtain ⟨i, _, rfl⟩ := List.mem_map.mp hx
    obtain ⟨i', _, rfl⟩ := List.mem_map.mp hy
    exact Or.inl h

/-- C22 (dense gradient). The generated pattern is usable, contains every pair and has `nf * nx` entries. -/
theorem C22_dense_gradient (nf nx : Nat) :
    GradPattern nf nx (denseGradient nf nx) ∧
    (∀ p : Nat × Nat, p.1 < nf → p.2 < nx → p ∈ denseGradient nf nx) ∧
    (denseGradient nf nx).length = nf * nx := by
  have hm : ∀ p : Nat × Nat, p ∈ denseGradient nf nx ↔ p.1 < nf ∧ p.2 < nx := by
    rintro ⟨a, b⟩
    simp [denseGradient]
  refine ⟨⟨fun p hp => (hm p).mp hp, pairwise_flatMap_lex _ _⟩, fun p h1 h2 => (hm p).mpr ⟨h1, h2⟩, ?_⟩
  simp [denseGradient, List.length_flatMap]

/-- C22 (dense hessian). The generated pattern is usable, contains every pair of the lower triangle and has
`nx * (nx + 1) / 2` entries. -/
theorem C22_dense_hessian (nx : Nat) :
    HessPattern nx (denseHessian nx) ∧
    (∀ p : Nat × Nat, p.1 < nx → p.2 ≤ p.1 → p ∈ denseHessian nx) ∧
    (denseHessian nx).length = nx * (nx + 1) / 2 := by
  have hm : ∀ p : Nat × Nat, p ∈ denseHessian nx ↔ p.1 < nx ∧ p.2 ≤ p.1 := by
    rintro ⟨a, b⟩
    simp [denseHessian]
  refine ⟨⟨fun p hp => (hm p).mp hp, pairwise_flatMap_lex _ _⟩, fun p h1 h2 => (hm p).mpr ⟨h1, h2⟩, ?_⟩
  have : ∀ n, 2 * (denseHessian n).length = n * (n + 1) := by
    intro n
    induction n with
    | zero => rfl
    | succ k ih =>
      have : (denseHessian (k + 1)).length = (denseHessian k).length + (k + 1) := by
        simp [denseHessian, List.range_succ, List.flatMap_append]
      rw [this, Nat.mul_add, ih]; ring
  have := this nx
  omega

section cached
variable {K : Type} [Field K] [LinearOrder K] [FloorRing K] [IsStrictOrderedRing K]

/-- C22 (cached gradient size). In a constructed problem the cached size of the gradient pattern, against which
gradients are checked, is the number of entries of the pattern `gradient_sparsity()` returns. -/
theorem C22_cached_gradient (u : Udp K) (p : Problem K) (h : construct u = .ok p) :
    ∃ l, gradientSparsity p u.gs = .ok l ∧ GradPattern p.nf p.nx l ∧ l.length = p.gsDim := by
  obtain ⟨_, h2, _, hg, _, e1, _, _, e2, e3, e4, _⟩ := construct_inv h
  have enf : p.nf = u.nobj + u.nec + u.nic := by rw [Problem.nf, e2, e3, e4]
  have enx : p.nx = u.lb.length := by rw [Problem.nx, e1]
  rw [← enf, ← enx] at hg
  cases hgs : u.gs with
  | none =>
    rw [hgs] at hg
    simp only [gsDimOf] at hg
    split at hg
    · cases hg
    · rename_i hle
      simp only [Outcome.ok.injEq] at hg
      refine ⟨_, rfl, (C22_dense_gradient _ _).1, ?_⟩
      rw [(C22_dense_gradient _ _).2.2, ← hg, w64, Nat.mul_comm, Nat.mod_eq_of_lt]
      rw [sizeMax, gt_iff_lt, not_lt, Nat.le_div_iff_mul_le (by rw [enf]; omega)] at hle
      omega
  | some g =>
    rw [hgs] at hg
    simp only [gsDimOf] at hg
    rcases hc : checkGradientSparsity p.nf p.nx g with a | e | _ | _ <;> rw [hc] at hg
    · simp only [Outcome.bind_ok, Outcome.ok.injEq] at hg
      refine ⟨g, ?_, (chk_grad _ _ _).ok_iff.mp hc, hg⟩
      simp only [gradientSparsity, hc, Outcome.bind_ok]
      rw [if_neg (by simpa using hg)]
    all_goals cases hg

/-- Whatever pattern the user returns later, `gradient_sparsity()` returns only usable patterns of the cached
size. -/
theorem C22_gradient_sparsity_checked (p : Problem K) (g l : List (Nat × Nat))
    (h : gradientSparsity p (some g) = .ok l) : l = g ∧ GradPattern p.nf p.nx l ∧ l.length = p.gsDim := by
  simp only [gradientSparsity] at h
  rcases hc : checkGradientSparsity p.nf p.nx g with a | e | _ | _ <;> rw [hc] at h
  · simp only [Outcome.bind_ok] at h
    split at h
    · cases h
    · rename_i hl
      cases h
      exact ⟨rfl, (chk_grad _ _ _).ok_iff.mp hc, by simpa using hl⟩
  all_goals cases h

/-- C22 (cached hessian sizes), `_partial`: without user sparsity only for at most 2^32 variables; beyond that
the product wraps around, see `C22_cached_hessians_overflow`. -/
theorem C22_cached_hessians_partial (u : Udp K) (p : Problem K) (h : construct u = .ok p)
    (hnx : u.hs = none → p.nx ≤ 2 ^ 32) :
    ∃ l, hessiansSparsity p u.hs = .ok l ∧ l.length = p.nf ∧ (∀ x ∈ l, HessPattern p.nx x) ∧
      l.map List.length = p.hsDim := by
  obtain ⟨_, h2, _, _, hh, e1, _, _, e2, e3, e4, _⟩ := construct_inv h
  have enf : p.nf = u.nobj + u.nec + u.nic := by rw [Problem.nf, e2, e3, e4]
  have enx : p.nx = u.lb.length := by rw [Problem.nx, e1]
  rw [← enf, ← enx] at hh
  cases hhs : u.hs with
  | none =>
    have hnx := hnx hhs
    rw [hhs] at hh
    simp only [hsDimOf] at hh
    split at hh
    · cases hh
    · simp only [Outcome.ok.injEq] at hh
      refine ⟨_, rfl, by simp [denseHessians], ?_, ?_⟩
      · intro x hx
        rw [List.eq_of_mem_replicate hx]; exact (C22_dense_hessian _).1
      · rw [← hh, denseHessians, List.map_replicate, (C22_dense_hessian _).2.2]
        congr 1
        have hlt : p.nx * (p.nx - 1) < 2 ^ 64 := by
          rcases Nat.eq_zero_or_pos p.nx with h0 | h0
          · rw [h0]; norm_num
          · calc p.nx * (p.nx - 1) ≤ 2 ^ 32 * (2 ^ 32 - 1) := Nat.mul_le_mul hnx (by omega)
              _ < 2 ^ 64 := by norm_num
        rw [w64, w64, Nat.mod_eq_of_lt hlt, Nat.mod_eq_of_lt (by omega)]
        generalize p.nx = n
        cases n with
        | zero => rfl
        | succ k =>
          have : (k + 1) * (k + 1 + 1) = (k + 1) * (k + 1 - 1) + 2 * (k + 1) := by
            simp only [Nat.add_sub_cancel]; ring
          rw [this]; omega
  | some g =>
    rw [hhs] at hh
    simp only [hsDimOf] at hh
    rcases hc : checkHessiansSparsity p.nf p.nx g with a | e | _ | _ <;> rw [hc] at hh
    · simp only [Outcome.bind_ok, Outcome.ok.injEq] at hh
      have := (C22_checks p.nf p.nx [] g).2.2.1.mp hc
      refine ⟨g, ?_, this.1, this.2, hh⟩
      simp only [hessiansSparsity, hc, Outcome.bind_ok]
      rw [if_neg (by simpa using hh)]
    all_goals cases hh

theorem construct_box (n : Nat) (hn : 0 < n) (d : List Nat) (g : Nat) (hg : gsDimOf none 1 n = .ok g)
    (hd : hsDimOf none 1 n = .ok d) :
    ∃ (u : Udp K) (p : Problem K), construct u = .ok p ∧ u.hs = none ∧ p.hsDim = d ∧ p.nx = n := by
  have hb : SaneBounds (List.replicate n (Fl.fin (0 : K))) (List.replicate n (.fin 0)) 0 := by
    refine ⟨by rw [Ne, List.replicate_eq_nil_iff]; omega, by simp, ?_,
      by omega, ?_, ?_⟩
    · intro i l u hl hu
      rw [List.getElem?_replicate] at hl hu
      split at hl
      · rename_i hi
        rw [if_pos hi] at hu
        cases hl; cases hu; exact ⟨by simp, by simp, le_refl _⟩
      · cases hl
    · intro i a hi h
      have := (List.getElem?_eq_some_iff.mp h).1; omega
    · intro i a hi h
      have := (List.getElem?_eq_some_iff.mp h).1
      rw [List.length_replicate] at this hi
      omega
  refine ⟨⟨List.replicate n (.fin 0), List.replicate n (.fin 0), 0, 1, 0, 0, none, none⟩,
    ⟨List.replicate n (.fin 0), List.replicate n (.fin 0), 0, 1, 0, 0, g, d, []⟩, ?_, rfl, rfl,
    by simp [Problem.nx]⟩
  unfold construct
  rw [if_neg (Nat.not_lt_zero _), (C19_bounds _ _ 0).1.mpr hb]
  simp only [Outcome.bind_ok, List.length_replicate]
  rw [show (1 + 0 + 0) = 1 from rfl, hg, hd]
  simp [sizeMax]

/-- C22 is false above 2^32 variables: a problem with 2^32 + 1 variables and no user hessian sparsity is accepted,
but the cached size is not the size of the dense pattern (`nx * (nx - 1)` wraps before it is halved; the overflow
check protects `nx / 2 * (nx + 1)` instead). -/
theorem C22_cached_hessians_overflow :
    ∃ (u : Udp K) (p : Problem K), construct u = .ok p ∧ u.hs = none ∧
      ∃ d ∈ p.hsDim, d ≠ (denseHessian p.nx).length := by
  obtain ⟨u, p, h1, h2, h3, h4⟩ := construct_box (K := K) 4294967297 (by omega) [6442450945] 4294967297
    (by simp [gsDimOf, sizeMax, w64]) (by simp [hsDimOf, sizeMax, w64])
  refine ⟨u, p, h1, h2, 6442450945, by rw [h3]; simp, ?_⟩
  rw [(C22_dense_hessian _).2.2, h4]
  norm_num

end cached

example : GradPattern 2 3 [(0, 1), (1, 0), (1, 2)] ∧ HessPattern 3 [(0, 0), (2, 1)] :=
  ⟨(C22_checks 2 3 _ []).1.mp (by decide), (chk_hess 3 _).ok_iff.mp (by decide)⟩

end Verif.Props
