import Verif.Proof.Xnes
import Verif.Spec.Xnes
import Mathlib.Algebra.BigOperators.Fin
import Mathlib.Analysis.SpecialFunctions.Log.Basic
import Mathlib.Algebra.Order.BigOperators.Group.List

/-!
# C105, C106 and C107: a run of `xnes`
-/

set_option autoImplicit false

namespace Verif.Props

open Verif Run Prob Pop Alg

variable {K σ : Type} [Field K] [LinearOrder K]

/-! ### C105: what is evaluated, and when a run ends -/

/-- C105. Learning rates and `sigma0` are refused unless they are in `]0, 1]` or -1; NaN is accepted. -/
theorem C105_ctor (gens : Nat) (em es eb s0 ftol xtol : Fl K) (memory force : Bool) :
    (xnCtor gens em es eb s0 ftol xtol memory force = .ok ⟨gens, em, es, eb, s0, ftol, xtol, memory, force⟩ ∨
      xnCtor gens em es eb s0 ftol xtol memory force = .throws .invalidArgument) ∧
    (xnCtor gens em es eb s0 ftol xtol memory force = .throws .invalidArgument ↔
      ∃ r ∈ [em, es, eb, s0], r ≠ .nan ∧ r ≠ .fin (-1) ∧ (r ≤ .fin 0 ∨ .fin 1 < r)) := by
  have key : ∀ r : Fl K, xnBadRate r = true ↔ r ≠ .nan ∧ r ≠ .fin (-1) ∧ (r ≤ .fin 0 ∨ .fin 1 < r) := by
    intro r
    cases r with
    | fin a => simp [xnBadRate, Fl.le, Fl.gt, Fl.lt, Fl.eq, Fl.fin_le_fin, and_comm, Fl.lt_def, le_iff_lt_or_eq]
    | _ => simp [xnBadRate, Fl.le, Fl.gt, Fl.lt, Fl.eq, Fl.le_def, Fl.cls, Fl.lt_def]
  simp only [List.mem_cons, List.not_mem_nil, or_false, exists_eq_or_imp, exists_eq_left, ← key]
  unfold xnCtor
  split
  · rename_i h; simp [h]
  rename_i h1
  split
  · rename_i h; simp [h]
  rename_i h2
  split
  · rename_i h; simp [h]
  rename_i h3
  split
  · rename_i h; simp [h]
  rename_i h4
  simp [h1, h2, h3, h4]

/-- C105. `evolve` throws before anything happens if the problem is constrained or has several objectives, if there are fewer than
four individuals (the message says five), or if a bound is not finite. -/
theorem C105_throws (v : XnEnv K σ) (P : AProb K) (A : Xnes K) (fuel : Nat) (m : XnMem K) (s : St K σ)
    (h : P.info.nc ≠ 0 ∨ P.info.nf ≠ 1 ∨ s.pop.id.length < 4 ∨ (∃ a ∈ P.lb, a.isFinite = false) ∨ ∃ a ∈ P.ub, a.isFinite = false) :
    xnEvolve v P A fuel m s = (.throws .invalidArgument, s) := by
  unfold xnEvolve
  show Run.bind _ _ _ = _
  unfold Run.bind
  dsimp only [Run.get]
  split
  · rfl
  split
  · rfl
  split
  · rfl
  split
  · rfl
  split
  · rfl
  · rename_i h1 h2 h3 h4 h5
    exfalso
    simp only [List.any_eq_true, Bool.not_eq_true', not_exists, not_and] at h4 h5
    rcases h with h | h | h | ⟨a, h, h'⟩ | ⟨a, h, h'⟩
    · exact h1 h
    · exact h2 h
    · exact h3 h
    · exact h4 a h h'
    · exact h5 a h h'

/-- C105. Nothing happens if there are no generations. -/
theorem C105_no_generations (v : XnEnv K σ) (P : AProb K) (A : Xnes K) (fuel : Nat) (m : XnMem K) (s : St K σ) (h0 : A.gens = 0)
    (hnc : P.info.nc = 0) (hnf : P.info.nf = 1) (h4 : 4 ≤ s.pop.id.length) (hl : ∀ a ∈ P.lb, a.isFinite = true)
    (hu : ∀ a ∈ P.ub, a.isFinite = true) : xnEvolve v P A fuel m s = (.ok m, s) := by
  unfold xnEvolve
  show Run.bind _ _ _ = _
  unfold Run.bind
  dsimp only [Run.get]
  rw [if_neg (by omega), if_neg (by omega), if_neg (by omega), if_neg, if_neg, if_pos h0]
  · rfl
  · simpa using hu
  · simpa using hl

/-- What a run does. -/
structure XnDone (op : Fl.Ops K) (P : AProb K) (A : Xnes K) (Num : Prop) (s s' : St K σ) : Prop where
  /-- the individuals keep their IDs, the population is sound -/
  inv : Inv P.info s'.pop
  id : s'.pop.id = s.pop.id
  /-- `k` times as many evaluations as individuals, none of which failed; the population are the last ones -/
  calls : ∃ (k : Nat) (old : List (ECall K)), 1 ≤ k ∧ k ≤ A.gens ∧ s'.evs = s.evs ++ old ++ asCalls (individuals s'.pop) ∧
    old.length = (k - 1) * s.pop.id.length ∧ (individuals s'.pop).length = s.pop.id.length ∧
    (∀ p ∈ old, ∃ f, p.2 = .ok f) ∧
    (∀ p ∈ old ++ asCalls (individuals s'.pop), (∃ h, p.2 = P.fit h p.1) ∧ p.1.length = P.info.nx ∧ (Num → AllFin p.1) ∧
      (A.force = true ∧ Num → InBox P.lb P.ub 0 p.1))

theorem xnTurn_len {v : XnEnv K σ} {P : AProb K} {A : Xnes K} {lam : Nat} {a b : XnState K P.info.nx} {zs : List (Vec K P.info.nx)}
    (h : XnTurn v P A lam a zs b) : (asCalls (b.xs.zip b.fs)).length = lam := by
  simp [asCalls, h.xl, h.fl]

theorem xnSteps_evs {v : XnEnv K σ} {P : AProb K} {A : Xnes K} {lam : Nat} {a : XnState K P.info.nx} :
    ∀ (k : Nat) (b : XnState K P.info.nx), Steps (XnFull v P A lam) k a b → ∃ new, b.evs = a.evs ++ new ∧ new.length = k * lam ∧
      (∀ p ∈ new, ∃ f, p.2 = .ok f) := by
  intro k
  induction k with
  | zero => intro b h; cases h; exact ⟨[], by simp, by simp, by simp⟩
  | succ k ih =>
    intro c h
    cases h with
    | snoc h hF =>
      rename_i b
      obtain ⟨new, he, hl, hok⟩ := ih b h
      obtain ⟨zs, idx, hT, -, -⟩ := hF
      refine ⟨new ++ asCalls (c.xs.zip c.fs), by rw [hT.ev, he, List.append_assoc], ?_, ?_⟩
      · rw [List.length_append, hl, xnTurn_len hT]; ring
      · intro p hp
        rcases List.mem_append.mp hp with hp | hp
        · exact hok p hp
        · obtain ⟨q, _, rfl⟩ := List.mem_map.mp hp
          exact ⟨q.2, rfl⟩

theorem xnDone_of {v : XnEnv K σ} {P : AProb K} {A : Xnes K} {Num : Prop} {s s' : St K σ} {b b' : XnVars K P.info.nx} {k : Nat} (hk : 1 ≤ k)
    (hk' : k ≤ A.gens) {new : List (ECall K)} (ht : TrackedBy (XnBox Num A P) P s new s') {m : XnState K P.info.nx}
    (hm : Steps (XnFull v P A s.pop.id.length) (k - 1) (xnSt P b s) m) {zs : List (Vec K P.info.nx)}
    (hT : XnTurn v P A s.pop.id.length m zs (xnSt P b' s')) : XnDone v.op P A Num s s' := by
  obtain ⟨old, he, hl, hok⟩ := xnSteps_evs _ _ hm
  have hev := hT.ev
  rw [he] at hev
  have hnew : new = old ++ asCalls (individuals s'.pop) := by
    have := ht.evs
    rw [show s'.evs = _ from hev] at this
    simp only [xnSt, List.append_assoc, List.append_cancel_left_eq] at this
    exact this.symm
  refine ⟨ht.inv, ht.id, k, old, hk, hk', hev, hl, ?_, hok, ?_⟩
  · have := hT.xl
    have := hT.fl
    simp only [xnSt] at *
    simp [individuals, *]
  · rw [← hnew]
    intro p hp
    exact ⟨ht.user p hp, ht.box p hp⟩

section
variable [IsStrictOrderedRing K]

/-- C105. A run of `xnes` evaluates, in every generation, as many new points as there are individuals, and they replace the
individuals in turn whatever their fitness; there are between one and `gens` generations. With `force_bounds`, if the arithmetic stays
finite, all points evaluated are within the bounds. If the run fails, then because the user's function did.
Missing: the cases with undefined behaviour (NaN returned by the fitness function) and those in which the arithmetic does not stay
finite (NaN parameters are accepted). -/
theorem C105_evolve_partial (v : XnEnv K σ) (rep : K → Prop) (hg : v.g.Lawful rep) (hsrt : ValidSort v.srt) (P : AProb K) (hP : FiniteBox P)
    (hnobj : P.info.nobj = 1) (hnc : P.info.nc = 0) (Num : Prop) (hnan : NeverNan Num P) (A : Xnes K) (hgens : A.gens + 1 < 2 ^ 32) (hgens0 : A.gens ≠ 0)
    (s : St K σ) (hi : Inv P.info s.pop) (h4 : 4 ≤ s.pop.id.length) (hsz : s.pop.id.length ≤ 2 ^ 63)
    (hN : Num → XnNum v P A s.pop.id.length) (hx : Num → ∀ x ∈ s.pop.x, AllFin x) (m : XnMem K)
    (hm : Num → A.memory = true → m.n = P.info.nx → VarsFin m.vars) (fuel : Nat) (hfuel : A.gens < fuel) :
    wp (xnEvolve v P A fuel m) (fun _ s' => XnDone v.op P A Num s s') (FailedBy (XnBox Num A P) P s) s := by
  refine (xn_run hg hsrt hP hnobj hnc hnan hgens hgens0 hi h4 hsz hN hx hm hfuel).mono ?_ (fun _ _ h => h)
  rintro m' s' ⟨b0, b, -, -, ⟨⟨new, ht, -⟩, hs, -⟩ | ⟨k, hk, hk0, ⟨new, ht, -⟩, ⟨a, ha, zs, hT, -, -⟩, -⟩⟩
  · obtain ⟨g, hg'⟩ : ∃ g, A.gens = g + 1 := ⟨A.gens - 1, by omega⟩
    rw [hg'] at hs
    cases hs with
    | snoc hs hF =>
      obtain ⟨zs, idx, hT, -, -⟩ := hF
      exact xnDone_of (k := A.gens) (by omega) le_rfl ht (by rw [hg']; exact hs) hT
  · exact xnDone_of hk0 hk ht ha hT

end

/-! ### C106: the search distribution, in exact arithmetic -/

/-- the numbers as doubles -/
def flVec {n : Nat} (x : Fin n → K) : Vec K n := fun i => .fin (x i)

/-- the numbers as doubles -/
def flMat {n : Nat} (A : Matrix (Fin n) (Fin n) K) : Mat K n := fun i j => .fin (A i j)

/-- the members of the algorithm stand for a distribution -/
def StandsFor {n : Nat} (b : XnVars K n) (c : Nes K n) : Prop := b.mean = flVec c.mean ∧ b.A = flMat c.A

/-- What is needed of the functions and parameters for the formulas to hold: exact arithmetic, a logarithm,
a square root, a matrix exponential; the parameters in use are the given ones or, for -1, the defaults. -/
structure XnExact (v : XnEnv K σ) (A : Xnes K) (n : Nat) (L R : K → K) (E : {n : Nat} → Matrix (Fin n) (Fin n) K → Matrix (Fin n) (Fin n) K)
    (lam : Nat) (q : NesPars K) : Prop where
  op : v.op = Fl.exact K
  int : ∀ z : ℤ, v.g.ofInt z = z
  log : ∀ a : K, 0 < a → v.lg (.fin a) = .fin (L a)
  exp : ∀ {n : Nat} (M : Matrix (Fin n) (Fin n) K), v.mexp (flMat M) = flMat (E M)
  sqrt : v.sq (.fin (n : K)) = .fin (R n) ∧ 0 < R n
  mu : .fin q.mu = if A.etaMu = .fin (-1) then .fin 1 else A.etaMu
  sigma : .fin q.sigma = if A.etaSigma = .fin (-1) then .fin (6 / 10 * (3 + L n) / (n * R n)) else A.etaSigma
  b : .fin q.b = if A.etaB = .fin (-1) then .fin (6 / 10 * (3 + L n) / (n * R n)) else A.etaB
  u : q.u = nesWeights L lam

section exact

theorem laSum_exact {n : Nat} (x : Fin n → K) : laSum (Fl.exact K) (flVec x) = .fin (∑ i, x i) := by
  unfold laSum
  rw [Fin.sum_univ_def]
  have key : ∀ (l : List (Fin n)) (a : K), l.foldl (fun s j => (Fl.exact K).add s (flVec x j)) (.fin a) = .fin (a + (l.map x).sum) := by
    intro l
    induction l with
    | nil => intro a; simp
    | cons j l ih =>
      intro a
      rw [List.foldl_cons, show (Fl.exact K).add (.fin a) (flVec x j) = .fin (a + x j) from rfl, ih, List.map_cons, List.sum_cons, add_assoc]
  rw [show (Fl.exact K).zero = .fin 0 from rfl, key, zero_add]

theorem laApply_exact {n : Nat} (A : Matrix (Fin n) (Fin n) K) (x : Fin n → K) :
    laApply (Fl.exact K) (flMat A) (flVec x) = flVec (A.mulVec x) := by
  funext i
  exact laSum_exact (fun j => A i j * x j)

theorem laMul_exact {n : Nat} (A B : Matrix (Fin n) (Fin n) K) : laMul (Fl.exact K) (flMat A) (flMat B) = flMat (A * B) := by
  funext i j
  exact laSum_exact (fun k => A i k * B k j)

theorem laTrace_exact {n : Nat} (A : Matrix (Fin n) (Fin n) K) : laTrace (Fl.exact K) (flMat A) = .fin A.trace :=
  laSum_exact (fun i => A i i)

theorem laId_exact (n : Nat) : (laId n : Mat K n) = flMat 1 := by
  funext i j
  unfold laId flMat
  rw [Matrix.one_apply]
  split <;> rfl

/-- weights and vectors as doubles -/
def flPair {n : Nat} (p : K × (Fin n → K)) : Fl K × Vec K n := (.fin p.1, flVec p.2)

theorem xnCenter_exact {n : Nat} (l : List (K × (Fin n → K))) :
    xnCenter (Fl.exact K) (l.map flPair) = flVec (l.map (fun p => p.1 • p.2)).sum := by
  cases l with
  | nil => rfl
  | cons p l =>
    have key : ∀ (l : List (K × (Fin n → K))) (c : Fin n → K),
        (l.map flPair).foldl (fun c q i => (Fl.exact K).add (c i) ((Fl.exact K).mul q.1 (q.2 i))) (flVec c) =
          flVec (c + (l.map (fun p => p.1 • p.2)).sum) := by
      intro l
      induction l with
      | nil => intro c; simp
      | cons q l ih =>
        intro c
        rw [List.map_cons, List.foldl_cons, List.map_cons, List.sum_cons, ← add_assoc, ← ih]
        rfl
    rw [List.map_cons, List.map_cons, List.sum_cons, ← key]
    rfl

theorem xnOuter_exact {n : Nat} (p : K × (Fin n → K)) :
    xnOuter (Fl.exact K) (flPair p) = flMat (p.1 • (Matrix.vecMulVec p.2 p.2 - 1)) := by
  funext i j
  unfold xnOuter
  rw [laId_exact]
  exact congrArg (fun x => Fl.fin (p.1 * x)) (sub_eq_add_neg _ _).symm

theorem xnCov_exact {n : Nat} (l : List (K × (Fin n → K))) : xnCov (Fl.exact K) (l.map flPair) = flMat (nesM l) := by
  unfold nesM
  cases l with
  | nil => rfl
  | cons p l =>
    have key : ∀ (l : List (K × (Fin n → K))) (c : Matrix (Fin n) (Fin n) K),
        (l.map flPair).foldl (fun c q i j => (Fl.exact K).add (c i j) (xnOuter (Fl.exact K) q i j)) (flMat c) =
          flMat (c + (l.map (fun p => p.1 • (Matrix.vecMulVec p.2 p.2 - 1))).sum) := by
      intro l
      induction l with
      | nil => intro c; simp
      | cons q l ih =>
        intro c
        rw [List.map_cons, List.foldl_cons, List.map_cons, List.sum_cons, ← add_assoc, ← ih, xnOuter_exact]
        rfl
    rw [List.map_cons, List.map_cons, List.sum_cons, ← key, ← xnOuter_exact]
    rfl

theorem eq_fin {r : Fl K} {a : K} : (Fl.eq r (.fin a) = true) ↔ r = .fin a := by
  cases r <;> simp [Fl.eq]

theorem xnMu_exact {v : XnEnv K σ} {A : Xnes K} {n : Nat} {L R : K → K}
    {E : {n : Nat} → Matrix (Fin n) (Fin n) K → Matrix (Fin n) (Fin n) K} {lam : Nat} {q : NesPars K} (hv : XnExact v A n L R E lam q) :
    .fin q.mu = xnMu A := by
  unfold xnMu
  rw [hv.mu]
  simp only [eq_fin]

theorem xnRate_exact [IsStrictOrderedRing K] {v : XnEnv K σ} {A : Xnes K} {n : Nat} (hn : 0 < n) {L R : K → K}
    {E : {n : Nat} → Matrix (Fin n) (Fin n) K → Matrix (Fin n) (Fin n) K} {lam : Nat} {q : NesPars K} (hv : XnExact v A n L R E lam q) :
    .fin q.sigma = xnRate v n A.etaSigma ∧ .fin q.b = xnRate v n A.etaB := by
  have hn' : (0 : K) < n := by exact_mod_cast hn
  have hd : xnDefault v n = .fin (6 / 10 * (3 + L n) / (n * R n)) := by
    unfold xnDefault
    dsimp only
    rw [hv.op, hv.int, Int.cast_natCast, hv.log _ hn', hv.sqrt.1, show (Fl.exact K).add (.fin 3) (.fin (L n)) = .fin (3 + L n) from rfl,
      show (Fl.exact K).mul (.fin (6 / 10)) (.fin (3 + L n)) = .fin (6 / 10 * (3 + L n)) from rfl,
      show (Fl.exact K).mul (.fin (n : K)) (.fin (R n)) = .fin (n * R n) from rfl]
    show Fl.div (.fin _) (.fin _) = _
    have : (n : K) * R n ≠ 0 := (mul_pos hn' hv.sqrt.2).ne'
    simp only [Fl.div]
    rw [if_neg this]
  unfold xnRate
  rw [hv.sigma, hv.b, hd]
  simp only [eq_fin, and_self]

theorem xnUpdate_exact [IsStrictOrderedRing K] {v : XnEnv K σ} {A : Xnes K} {n : Nat} (hn : 0 < n) {L R : K → K}
    {E : {n : Nat} → Matrix (Fin n) (Fin n) K → Matrix (Fin n) (Fin n) K} {lam : Nat} {q : NesPars K} (hv : XnExact v A n L R E lam q) {b : XnVars K n}
    {c : Nes K n} (hb : StandsFor b c) (l : List (K × (Fin n → K))) : StandsFor (xnUpdate v A b (l.map flPair)) (nesNext E q c l) := by
  have hn' : (n : K) ≠ 0 := by exact_mod_cast hn.ne'
  have hdiv : ∀ a : K, (Fl.exact K).div (.fin a) (.fin (n : K)) = .fin (a / n) := by
    intro a
    show Fl.div (.fin a) (.fin (n : K)) = _
    simp [Fl.div, hn']
  have hint : v.g.ofInt n = (n : K) := by rw [hv.int]; simp
  unfold xnUpdate nesNext StandsFor
  dsimp only
  rw [hb.1, hb.2, hv.op, ← xnMu_exact hv, ← (xnRate_exact hn hv).1, ← (xnRate_exact hn hv).2, xnCenter_exact, xnCov_exact, laTrace_exact, laId_exact, hint, hdiv]
  constructor
  · have h1 : (fun i j => (Fl.exact K).mul (.fin q.mu) (flMat c.A i j)) = flMat (q.mu • c.A) := rfl
    rw [h1, laApply_exact, Matrix.smul_mulVec]
    rfl
  · have h2 : (fun i j => (Fl.exact K).mul (.fin (1 / 2)) ((Fl.exact K).add ((Fl.exact K).mul ((Fl.exact K).div ((Fl.exact K).mul
        (.fin q.sigma) (.fin (nesM l).trace)) (.fin (n : K))) (flMat 1 i j)) ((Fl.exact K).mul (.fin q.b) ((Fl.exact K).sub (flMat (nesM l) i j)
        ((Fl.exact K).mul (.fin ((nesM l).trace / n)) (flMat 1 i j)))))) =
        flMat ((1 / 2 : K) • ((q.sigma * ((nesM l).trace / n)) • (1 : Matrix (Fin n) (Fin n) K) +
          q.b • (nesM l - ((nesM l).trace / n) • (1 : Matrix (Fin n) (Fin n) K)))) := by
      funext i j
      rw [show (Fl.exact K).mul (.fin q.sigma) (.fin (nesM l).trace) = .fin (q.sigma * (nesM l).trace) from rfl, hdiv, mul_div_assoc]
      exact congrArg (fun x => Fl.fin (1 / 2 * (q.sigma * ((nesM l).trace / n) * (1 : Matrix (Fin n) (Fin n) K) i j + q.b * x))) (sub_eq_add_neg _ _).symm
    rw [h2, hv.exp, laMul_exact]

theorem vecFin_of {n : Nat} {x : Vec K n} (h : VecFin x) : ∃ y, x = flVec y := by
  choose y hy using h
  exact ⟨y, funext hy⟩

theorem zs_exact {n : Nat} : ∀ {zs : List (Vec K n)}, (∀ z ∈ zs, VecFin z) → ∃ ys : List (Fin n → K), zs = ys.map flVec := by
  intro zs
  induction zs with
  | nil => intro _; exact ⟨[], rfl⟩
  | cons z zs ih =>
    intro h
    obtain ⟨y, hy⟩ := vecFin_of (h z (by simp))
    obtain ⟨ys, hys⟩ := ih (fun w hw => h w (by simp [hw]))
    exact ⟨y :: ys, by rw [hy, hys]; rfl⟩

section
variable [IsStrictOrderedRing K]

/-- the first weight, before it is divided by the sum, is positive -/
theorem nesRaw_pos {L : K → K} (hL : StrictMonoOn L (Set.Ioi 0)) {lam : Nat} (h0 : 0 < lam) :
    0 < ((List.range lam).map (fun k : Nat => max 0 (L (lam / 2 + 1) - L (k + 1)))).sum := by
  obtain ⟨n, rfl⟩ : ∃ n, lam = n + 1 := ⟨lam - 1, by omega⟩
  rw [List.range_succ_eq_map, List.map_cons, List.sum_cons]
  refine add_pos_of_pos_of_nonneg ?_ (List.sum_nonneg ?_)
  · refine lt_max_of_lt_right (sub_pos.mpr (hL ?_ ?_ ?_))
    · simp
    · simp only [Set.mem_Ioi]; positivity
    · have : (0 : K) < ((n + 1 : ℕ) : K) / 2 := by positivity
      push_cast at this ⊢
      linarith
  · intro x hx
    obtain ⟨k, _, rfl⟩ := List.mem_map.mp hx
    exact le_max_left _ _

/-- C106. The weights sum up to zero. -/
theorem C106_weights_sum {L : K → K} (hL : StrictMonoOn L (Set.Ioi 0)) {lam : Nat} (h0 : 0 < lam) : (nesWeights L lam).sum = 0 := by
  have hs := nesRaw_pos hL h0
  unfold nesWeights
  dsimp only
  obtain ⟨raw, hr⟩ : ∃ raw, raw = (List.range lam).map (fun k : Nat => max 0 (L (lam / 2 + 1) - L (k + 1))) := ⟨_, rfl⟩
  have hl : raw.length = lam := by simp [hr]
  rw [← hr] at hs ⊢
  have hlam : (lam : K) ≠ 0 := by exact_mod_cast h0.ne'
  have key : ∀ (c d : K) (l : List K), (l.map (fun a => a / c - d)).sum = l.sum / c - l.length * d := by
    intro c d l
    induction l with
    | nil => simp
    | cons a l ih => rw [List.map_cons, List.sum_cons, ih, List.sum_cons, List.length_cons, Nat.cast_succ]; ring
  rw [key, hl, div_self hs.ne', mul_one_div_cancel hlam, sub_self]

/-- C106. Better individuals have no smaller weights. Those behind the first half, whatever their fitness, have the weight `-1 / lam`. -/
theorem C106_weights_order {L : K → K} (hL : StrictMonoOn L (Set.Ioi 0)) {lam : Nat} (h0 : 0 < lam) :
    (nesWeights L lam).length = lam ∧ (nesWeights L lam).Pairwise (· ≥ ·) ∧
    (∀ (k : Nat) (w : K), (nesWeights L lam)[k]? = some w → (lam : K) / 2 ≤ k → w = -(1 / lam)) ∧
    (∀ (k : Nat) (w : K), (nesWeights L lam)[k]? = some w → (k : K) < lam / 2 → -(1 / lam) < w) := by
  have hs := nesRaw_pos hL h0
  obtain ⟨S, hS⟩ : ∃ S, S = ((List.range lam).map (fun k : Nat => max 0 (L (lam / 2 + 1) - L (k + 1)))).sum := ⟨_, rfl⟩
  have he : nesWeights L lam = (List.range lam).map (fun k : Nat => max 0 (L (lam / 2 + 1) - L (k + 1)) / S - 1 / lam) := by
    unfold nesWeights
    dsimp only
    rw [← hS, List.map_map]
    rfl
  rw [← hS] at hs
  rw [he]
  have hpos : ∀ k : Nat, (0 : K) < k + 1 := fun k => by positivity
  have hget : ∀ (k : Nat) (w : K), ((List.range lam).map (fun k : Nat => max 0 (L (lam / 2 + 1) - L (k + 1)) / S - 1 / lam))[k]? = some w →
      w = max 0 (L (lam / 2 + 1) - L (k + 1)) / S - 1 / lam := by
    intro k w h
    rw [List.getElem?_map, Option.map_eq_some_iff] at h
    obtain ⟨j, hj, rfl⟩ := h
    obtain ⟨hj, e⟩ := List.getElem?_eq_some_iff.mp hj
    rw [List.getElem_range] at e
    rw [e]
  refine ⟨by simp, ?_, ?_, ?_⟩
  · rw [List.pairwise_map]
    refine List.Pairwise.imp ?_ List.pairwise_lt_range
    intro i j hij
    have hij' : (i : K) < j := by exact_mod_cast hij
    have h1 := hL (a := (i : K) + 1) (b := (j : K) + 1) (hpos i) (hpos j) (by linarith)
    have : max 0 (L (lam / 2 + 1) - L (j + 1)) ≤ max 0 (L (lam / 2 + 1) - L (i + 1)) := max_le_max le_rfl (by linarith)
    have := div_le_div_of_nonneg_right this hs.le
    show _ ≤ _
    linarith
  · intro k w h hk
    rw [hget k w h]
    have := hL.monotoneOn (a := (lam : K) / 2 + 1) (b := (k : K) + 1) (by simp only [Set.mem_Ioi]; positivity) (hpos k) (by linarith)
    rw [max_eq_left (by linarith)]
    simp
  · intro k w h hk
    rw [hget k w h]
    have := hL (a := (k : K) + 1) (b := (lam : K) / 2 + 1) (hpos k) (by simp only [Set.mem_Ioi]; positivity) (by linarith)
    rw [max_eq_right (by linarith)]
    have : 0 < (L (lam / 2 + 1) - L (k + 1)) / S := div_pos (by linarith) hs
    linarith

theorem xnUtil_exact {v : XnEnv K σ} {A : Xnes K} {n : Nat} {L R : K → K}
    {E : {n : Nat} → Matrix (Fin n) (Fin n) K → Matrix (Fin n) (Fin n) K} {lam : Nat} {q : NesPars K} (hv : XnExact v A n L R E lam q)
    (hL : StrictMonoOn L (Set.Ioi 0)) (h0 : 0 < lam) : xnUtil v lam = q.u.map .fin := by
  have hlam : (lam : K) ≠ 0 := by exact_mod_cast h0.ne'
  have hint : ∀ k : Nat, v.g.ofInt k = (k : K) := fun k => by rw [hv.int]; simp
  have hraw : ∀ k : Nat, xnRaw v lam k = .fin (max 0 (L (lam / 2 + 1) - L (k + 1))) := by
    intro k
    unfold xnRaw
    rw [hv.op, hint, hint, show (Fl.exact K).div (.fin (lam : K)) (.fin 2) = .fin (lam / 2) by
      show Fl.div (.fin (lam : K)) (.fin 2) = _
      simp [Fl.div], show (Fl.exact K).add (.fin ((lam : K) / 2)) (.fin 1) = .fin (lam / 2 + 1) from rfl, hv.log _ (by positivity),
      hv.log _ (by positivity), show (Fl.exact K).sub (.fin (L (lam / 2 + 1))) (.fin (L ((k + 1 : ℕ) : K))) = .fin (L (lam / 2 + 1) - L (k + 1)) by
      rw [Nat.cast_succ]
      exact congrArg Fl.fin (sub_eq_add_neg _ _).symm]
    unfold Fl.stdMax
    simp only [Fl.lt, decide_eq_true_eq]
    split
    · rename_i h; rw [max_eq_right h.le]
    · rename_i h; rw [max_eq_left (not_lt.mp h)]
  unfold xnUtil
  dsimp only
  rw [hv.u, hint, hv.op]
  have hs := nesRaw_pos hL h0
  unfold nesWeights
  dsimp only
  have he : (List.range lam).map (xnRaw v lam) = ((List.range lam).map (fun k : Nat => max 0 (L (lam / 2 + 1) - L (k + 1)))).map .fin := by
    rw [List.map_map]
    exact List.map_congr_left fun k _ => hraw k
  rw [he]
  generalize (List.range lam).map (fun k : Nat => max 0 (L (lam / 2 + 1) - L (k + 1))) = raw at hs ⊢
  have hsum : ∀ (l : List K) (a : K), (l.map Fl.fin).foldl (Fl.exact K).add (.fin a) = .fin (a + l.sum) := by
    intro l
    induction l with
    | nil => intro a; simp
    | cons x l ih => intro a; rw [List.map_cons, List.foldl_cons, show (Fl.exact K).add (.fin a) (.fin x) = .fin (a + x) from rfl, ih, List.sum_cons, add_assoc]
  rw [hsum, zero_add, List.map_map, List.map_map]
  refine List.map_congr_left fun a _ => ?_
  simp only [Function.comp]
  rw [show (Fl.exact K).div (.fin a) (.fin raw.sum) = .fin (a / raw.sum) by
      show Fl.div (.fin a) (.fin raw.sum) = _
      simp [Fl.div, hs.ne'], show (Fl.exact K).div (.fin 1) (.fin (lam : K)) = .fin (1 / lam) by
      show Fl.div (.fin 1) (.fin (lam : K)) = _
      simp [Fl.div, hlam]]
  exact congrArg Fl.fin (sub_eq_add_neg _ _).symm


theorem varsFin_of {n : Nat} {b : XnVars K n} {c : Nes K n} (h : StandsFor b c) : VarsFin b :=
  ⟨fun i => ⟨_, congrFun h.1 i⟩, fun i j => ⟨_, congrFun (congrFun h.2 i) j⟩⟩

theorem xnNum_exact {v : XnEnv K σ} {P : AProb K} {A : Xnes K} (hnx : 0 < P.info.nx) {L R : K → K}
    {E : {n : Nat} → Matrix (Fin n) (Fin n) K → Matrix (Fin n) (Fin n) K} {lam : Nat} {q : NesPars K} (hv : XnExact v A P.info.nx L R E lam q)
    (hL : StrictMonoOn L (Set.Ioi 0)) (h0 : 0 < lam) {sg : K} (hsg : .fin sg = if Fl.eq A.sigma0 (.fin (-1)) then .fin (1 / 2) else A.sigma0) :
    XnNum v P A lam where
  op := by rw [hv.op]; exact noOverflow_exact
  zero := ⟨0, by rw [hv.op]; rfl⟩
  div a := by
    have : (P.info.nx : K) ≠ 0 := by exact_mod_cast hnx.ne'
    refine ⟨a / P.info.nx, ?_⟩
    rw [hv.op, hv.int, Int.cast_natCast]
    show Fl.div (.fin a) (.fin (P.info.nx : K)) = _
    simp [Fl.div, this]
  mexp M hM := by
    choose f hf using hM
    have : M = flMat (Matrix.of f) := by funext i j; exact hf i j
    rw [this, hv.exp]
    exact fun i j => ⟨_, rfl⟩
  mu := ⟨_, (xnMu_exact hv).symm⟩
  rateS := ⟨_, (xnRate_exact hnx hv).1.symm⟩
  rateB := ⟨_, (xnRate_exact hnx hv).2.symm⟩
  sigma := by
    split at hsg
    · rename_i h
      revert h
      cases A.sigma0 <;> simp [Fl.eq]
    · exact ⟨_, hsg.symm⟩
  util := by
    rw [xnUtil_exact hv hL h0]
    intro w hw
    obtain ⟨a, _, rfl⟩ := List.mem_map.mp hw
    exact ⟨a, rfl⟩

theorem xnClamp_exact {lo hi x : K} : xnClamp (.fin lo) (.fin hi) (.fin x) = Fl.fin (nesClip lo hi x) := by
  unfold xnClamp nesClip
  simp only [Fl.lt, Fl.gt, decide_eq_true_eq]
  split
  · rfl
  · split <;> rfl

theorem xnPoint_exact {v : XnEnv K σ} (hop : v.op = Fl.exact K) {P : AProb K} {A : Xnes K} {lo hi : Fin P.info.nx → K}
    (hlo : P.lb = List.ofFn (fun j => .fin (lo j))) (hhi : P.ub = List.ofFn (fun j => .fin (hi j))) {b : XnVars K P.info.nx} {c : Nes K P.info.nx}
    (hb : StandsFor b c) {z : Fin P.info.nx → K} {x : List (Fl K)} (h : xnPoint v P A b (flVec z) = .ok x) :
    x = List.ofFn (fun j => Fl.fin (if A.force then nesClip (lo j) (hi j) (nesPoint c z j) else nesPoint c z j)) := by
  unfold xnPoint at h
  dsimp only at h
  rw [hb.1, hb.2, hop, laApply_exact] at h
  by_cases hf : A.force = true
  · rw [if_pos hf, vecOf_ok (by rw [hlo]; simp), Outcome.bind_ok, vecOf_ok (by rw [hhi]; simp), Outcome.bind_ok] at h
    cases h
    refine congrArg List.ofFn (funext fun j => ?_)
    rw [if_pos hf, ← xnClamp_exact]
    congr 1
    · simp only [hlo, List.getElem_ofFn]
    · simp only [hhi, List.getElem_ofFn]
  · rw [if_neg hf] at h
    cases h
    refine congrArg List.ofFn (funext fun j => ?_)
    rw [if_neg hf]
    rfl

/-- the state of a run in the terms of Verif/Spec/Xnes.lean -/
def nesSt {n : Nat} (c : Nes K n) (a : XnState K n) : NesState K n := ⟨c, a.xs, a.fs, a.evs⟩

theorem xnTurn_exact {v : XnEnv K σ} (hop : v.op = Fl.exact K) {P : AProb K} {A : Xnes K} {lam : Nat} {lo hi : Fin P.info.nx → K}
    (hlo : P.lb = List.ofFn (fun j => .fin (lo j))) (hhi : P.ub = List.ofFn (fun j => .fin (hi j))) {a b : XnState K P.info.nx}
    {c : Nes K P.info.nx} (hc : StandsFor a.vars c) {ys : List (Fin P.info.nx → K)} (h : XnTurn v P A lam a (ys.map flVec) b) (c' : Nes K P.info.nx) :
    NesTurn ⟨lo, hi, A.force, lam⟩ (nesSt c a) ys (nesSt c' b) where
  zl := by simpa using h.zl
  xl := h.xl
  fl := h.fl
  pts i z x h1 h2 := xnPoint_exact hop hlo hhi hc (h.pts i (flVec z) x (by rw [List.getElem?_map, h1]; rfl) h2)
  f1 f hf := List.length_eq_one_iff.mp (h.f1 f hf)
  ev := h.ev

theorem xnFull_exact {v : XnEnv K σ} {P : AProb K} {A : Xnes K} {lam : Nat} {lo hi : Fin P.info.nx → K}
    (hlo : P.lb = List.ofFn (fun j => .fin (lo j))) (hhi : P.ub = List.ofFn (fun j => .fin (hi j))) (hnx : 0 < P.info.nx) {L R : K → K}
    {E : {n : Nat} → Matrix (Fin n) (Fin n) K → Matrix (Fin n) (Fin n) K} {q : NesPars K} (hv : XnExact v A P.info.nx L R E lam q)
    (hL : StrictMonoOn L (Set.Ioi 0)) (h0 : 0 < lam) {a b : XnState K P.info.nx} {c : Nes K P.info.nx} (hc : StandsFor a.vars c)
    (h : XnFull v P A lam a b) : ∃ c', StandsFor b.vars c' ∧ NesStep E q ⟨lo, hi, A.force, lam⟩ (nesSt c a) (nesSt c' b) := by
  obtain ⟨zs, idx, hT, hs, hu⟩ := h
  obtain ⟨ys, rfl⟩ := zs_exact hT.zfin
  have hlt : ∀ i ∈ idx, i < lam := fun i hi => List.mem_range.mp (hs.perm.mem_iff.mp hi)
  have hyl : ys.length = lam := by simpa using hT.zl
  have hzip : (xnUtil v lam).zip (idx.map (fun i => (ys.map flVec).getD i (fun _ => .fin 0))) =
      (q.u.zip (idx.map (fun i => ys.getD i 0))).map flPair := by
    have h2 : idx.map (fun i => (ys.map flVec).getD i (fun _ => .fin 0)) = (idx.map (fun i => ys.getD i 0)).map flVec := by
      rw [List.map_map]
      refine List.map_congr_left fun i hi => ?_
      have := hlt i hi
      rw [List.getD_eq_getElem _ _ (by simp; omega), List.getElem_map]
      simp only [Function.comp]
      rw [List.getD_eq_getElem _ _ (by omega)]
    rw [xnUtil_exact hv hL h0, h2, List.zip_map]
    rfl
  rw [hzip] at hu
  refine ⟨nesNext E q c (q.u.zip (idx.map (fun i => ys.getD i 0))), ?_, ys, idx, xnTurn_exact hv.op hlo hhi hc hT _, hs.perm, ?_, rfl⟩
  · rw [hu]
    exact xnUpdate_exact hnx hv hc _
  · refine hs.sorted.imp ?_
    intro i j hij f g hf hg
    simp only [nesSt] at hf hg
    unfold xnLess at hij
    rw [hf, hg] at hij
    dsimp only at hij
    have nf := hT.fnan _ (List.mem_of_getElem? hf)
    have ng := hT.fnan _ (List.mem_of_getElem? hg)
    simp only [List.mem_singleton] at nf ng
    by_contra hlt
    rw [(Fl.lt_iff (Ne.symm ng) (Ne.symm nf)).mpr (not_le.mp hlt)] at hij
    cases hij

theorem xnSteps_exact {v : XnEnv K σ} {P : AProb K} {A : Xnes K} {lam : Nat} {lo hi : Fin P.info.nx → K}
    (hlo : P.lb = List.ofFn (fun j => .fin (lo j))) (hhi : P.ub = List.ofFn (fun j => .fin (hi j))) (hnx : 0 < P.info.nx) {L R : K → K}
    {E : {n : Nat} → Matrix (Fin n) (Fin n) K → Matrix (Fin n) (Fin n) K} {q : NesPars K} (hv : XnExact v A P.info.nx L R E lam q)
    (hL : StrictMonoOn L (Set.Ioi 0)) (h0 : 0 < lam) {a : XnState K P.info.nx} {c : Nes K P.info.nx} (hc : StandsFor a.vars c) :
    ∀ (k : Nat) (b : XnState K P.info.nx), Steps (XnFull v P A lam) k a b →
      ∃ c', StandsFor b.vars c' ∧ Steps (NesStep E q ⟨lo, hi, A.force, lam⟩) k (nesSt c a) (nesSt c' b) := by
  intro k
  induction k with
  | zero => intro b h; cases h; exact ⟨c, hc, .refl _⟩
  | succ k ih =>
    intro d h
    cases h with
    | snoc h hF =>
      rename_i b
      obtain ⟨c1, h1, h2⟩ := ih b h
      obtain ⟨c2, h3, h4⟩ := xnFull_exact hlo hhi hnx hv hL h0 h1 hF
      exact ⟨c2, h3, .snoc h2 h4⟩

theorem xnLast_exact {v : XnEnv K σ} (hop : v.op = Fl.exact K) {P : AProb K} {A : Xnes K} {lam : Nat} {lo hi : Fin P.info.nx → K}
    (hlo : P.lb = List.ofFn (fun j => .fin (lo j))) (hhi : P.ub = List.ofFn (fun j => .fin (hi j))) {a b : XnState K P.info.nx}
    {c : Nes K P.info.nx} (hc : StandsFor a.vars c) (h : XnLast v P A lam a b) :
    StandsFor b.vars c ∧ NesLast v.sq A.xtol A.ftol ⟨lo, hi, A.force, lam⟩ (nesSt c a) (nesSt c b) := by
  obtain ⟨zs, hT, hE, hu⟩ := h
  obtain ⟨ys, rfl⟩ := zs_exact hT.zfin
  refine ⟨hu ▸ hc, ys, xnTurn_exact hop hlo hhi hc hT c, rfl, ?_⟩
  rcases hE with ⟨z, hz, hx⟩ | ⟨d, ⟨f, g, hf, hg, hfg, rfl⟩, hd⟩
  · left
    rw [List.getElem?_map, Option.map_eq_some_iff] at hz
    obtain ⟨y, hy, rfl⟩ := hz
    refine ⟨y, hy, ?_⟩
    rw [hop, hc.2, laApply_exact] at hx
    unfold laNorm at hx
    rw [show (fun j => (Fl.exact K).mul (flVec (c.A.mulVec y) j) (flVec (c.A.mulVec y) j)) = flVec (fun j => c.A.mulVec y j * c.A.mulVec y j) from rfl,
      laSum_exact] at hx
    exact hx
  · right
    rw [hop] at hd
    exact ⟨f, g, hf, hg, fun h hh => hfg _ hh, hd⟩

/-- The distribution a run starts with when nothing is remembered: centred at the best individual, as wide as the bounds times `sg`. -/
def NesStart {n : Nat} (B : NesBox K n) (sg : K) (xs fs : List (List (Fl K))) (c : Nes K n) : Prop :=
  (∃ (i : Nat) (w : Fl K), xs[i]? = some (List.ofFn (fun j => Fl.fin (c.mean j))) ∧ fs[i]? = some [w] ∧ ∀ u, [u] ∈ fs → w ≤ u) ∧
    c.A = Matrix.diagonal (fun j => max (B.hi j - B.lo j) (1 / 1000000) * sg)

theorem xnReset_exact {v : XnEnv K σ} (hop : v.op = Fl.exact K) {P : AProb K} (hnobj : P.info.nobj = 1) (hnc : P.info.nc = 0) {A : Xnes K}
    {lo hi : Fin P.info.nx → K} (hlo : P.lb = List.ofFn (fun j => .fin (lo j))) (hhi : P.ub = List.ofFn (fun j => .fin (hi j))) {p : Pop.State K}
    (hi' : Inv P.info p) (hne : p.id ≠ []) (hsz : p.id.length ≤ 2 ^ 63) (hx : ∀ x ∈ p.x, AllFin x) (hf : ∀ f ∈ p.f, Fl.nan ∉ f) {sg : K}
    (hsg : .fin sg = if Fl.eq A.sigma0 (.fin (-1)) then .fin (1 / 2) else A.sigma0) {b : XnVars K P.info.nx} (hb : xnReset v P A p = .ok b) {lam : Nat} :
    ∃ c, StandsFor b c ∧ NesStart ⟨lo, hi, A.force, lam⟩ sg p.x p.f c := by
  have hnf : P.info.nf = 1 := by simp only [Info.nf, Info.nc] at *; omega
  have hfne : p.f ≠ [] := fun h => hne (List.length_eq_zero_iff.mp (by rw [← hi'.wf.fs, h]; rfl))
  obtain ⟨⟨i, fb, e1, g1, b1⟩, -⟩ := C17_unconstrained_partial v.srt v.sq P.info hnobj hnc p.f hfne (by rw [hi'.wf.fs]; exact hsz) hi'.wf.dimF hf p.tol
  have hif := (List.getElem?_eq_some_iff.mp g1).1
  have hix : i < p.x.length := by rw [hi'.wf.xs, ← hi'.wf.fs]; exact hif
  have hxd := hi'.wf.dimX _ (List.getElem_mem hix)
  unfold xnReset at hb
  rw [vecOf_ok (by rw [hlo]; simp), Outcome.bind_ok, vecOf_ok (by rw [hhi]; simp), Outcome.bind_ok, e1, Outcome.bind_ok,
    Outcome.get_of_lt hix, Outcome.bind_ok, vecOf_ok hxd, Outcome.bind_ok] at hb
  cases hb
  have hfin : VecFin (fun j : Fin P.info.nx => (p.x[i]'hix)[j.1]'(by rw [hxd]; exact j.2)) := fun j => hx _ (List.getElem_mem hix) _ (List.getElem_mem _)
  obtain ⟨y, hy⟩ := vecFin_of hfin
  refine ⟨⟨y, Matrix.diagonal (fun j => max (hi j - lo j) (1 / 1000000) * sg)⟩, ⟨hy, ?_⟩, ?_, rfl⟩
  · funext j k
    dsimp only
    unfold flMat
    rw [Matrix.diagonal_apply]
    split
    · rename_i hjk
      subst hjk
      rw [← hsg, hop]
      simp only [hlo, hhi, List.getElem_ofFn]
      rw [show (Fl.exact K).sub (.fin (hi j)) (.fin (lo j)) = .fin (hi j - lo j) from congrArg Fl.fin (sub_eq_add_neg _ _).symm,
        show Fl.stdMax (.fin (hi j - lo j)) (.fin (1 / 1000000)) = Fl.fin (max (hi j - lo j) (1 / 1000000)) by
          unfold Fl.stdMax
          simp only [Fl.lt, decide_eq_true_eq]
          split
          · rename_i h; rw [max_eq_right h.le]
          · rename_i h; rw [max_eq_left (not_lt.mp h)]]
      rfl
    · rfl
  · have l1 := hi'.wf.dimF _ (List.mem_of_getElem? g1)
    rw [hnf] at l1
    obtain ⟨w, rfl⟩ := List.length_eq_one_iff.mp l1
    refine ⟨i, w, ?_, g1, fun u hu => ?_⟩
    · rw [List.getElem?_eq_getElem hix]
      refine congrArg some (List.ext_getElem (by simp [hxd]) fun j h1 h2 => ?_)
      rw [List.getElem_ofFn]
      exact congrFun hy ⟨j, by rw [← hxd]; exact h1⟩
    · have := b1 _ hu
      simp only [Lower, List.getElem?_cons_zero, Option.some.injEq, exists_eq_left', not_lt, exists_and_left] at this
      exact this

/-- C106. In exact arithmetic, a run is a sequence of generations as given by the formulas of the paper, see `NesStep`: the distribution starts at the
best individual (`NesStart`) or where the last run left it; all generations but the last one of a run that stops early change it; a run
stops early only if one of the two criteria is met, see `NesLast`. -/
theorem C106_evolve (v : XnEnv K σ) (rep : K → Prop) (hg : v.g.Lawful rep) (hsrt : ValidSort v.srt) (P : AProb K) (hP : FiniteBox P)
    (hnobj : P.info.nobj = 1) (hnc : P.info.nc = 0) (hnan : NeverNan True P) (A : Xnes K) (hgens : A.gens + 1 < 2 ^ 32) (hgens0 : A.gens ≠ 0)
    (s : St K σ) (hi : Inv P.info s.pop) (h4 : 4 ≤ s.pop.id.length) (hsz : s.pop.id.length ≤ 2 ^ 63) (hx : ∀ x ∈ s.pop.x, AllFin x)
    (hf : ∀ f ∈ s.pop.f, Fl.nan ∉ f) (B : NesBox K P.info.nx) (hlo : P.lb = List.ofFn (fun j => .fin (B.lo j)))
    (hhi : P.ub = List.ofFn (fun j => .fin (B.hi j))) (hforce : B.force = A.force) (hlam : B.lam = s.pop.id.length) (L R : K → K)
    (E : {n : Nat} → Matrix (Fin n) (Fin n) K → Matrix (Fin n) (Fin n) K) (q : NesPars K) (hv : XnExact v A P.info.nx L R E s.pop.id.length q)
    (hL : StrictMonoOn L (Set.Ioi 0)) (sg : K) (hsg : .fin sg = if A.sigma0 = .fin (-1) then .fin (1 / 2) else A.sigma0) (m : XnMem K)
    (hm : A.memory = true → m.n = P.info.nx → ∃ b c, m = ⟨P.info.nx, b⟩ ∧ StandsFor b c) (fuel : Nat) (hfuel : A.gens < fuel) :
    wp (xnEvolve v P A fuel m) (fun m' s' => ∃ c0 c b', m' = ⟨P.info.nx, b'⟩ ∧ StandsFor b' c ∧
      ((A.memory = true ∧ ∃ b0, m = ⟨P.info.nx, b0⟩ ∧ StandsFor b0 c0) ∨
        ((A.memory = false ∨ m.n ≠ P.info.nx) ∧ NesStart B sg s.pop.x s.pop.f c0)) ∧
      (Steps (NesStep E q B) A.gens ⟨c0, s.pop.x, s.pop.f, s.evs⟩ ⟨c, s'.pop.x, s'.pop.f, s'.evs⟩ ∨
        ∃ k < A.gens, ∃ mid, Steps (NesStep E q B) k ⟨c0, s.pop.x, s.pop.f, s.evs⟩ mid ∧
          NesLast v.sq A.xtol A.ftol B mid ⟨c, s'.pop.x, s'.pop.f, s'.evs⟩)) (FailedBy (XnBox True A P) P s) s := by
  obtain ⟨lo, hi', force, lam⟩ := B
  dsimp only at hlo hhi hforce hlam
  subst hforce
  subst hlam
  have hnx0 : 0 < P.info.nx := by rw [hP.nx]; exact List.length_pos_iff.mpr hP.bounds.nonempty
  have hsg' : .fin sg = if Fl.eq A.sigma0 (.fin (-1)) then .fin (1 / 2) else A.sigma0 := by
    rw [hsg]
    cases A.sigma0 <;> simp [Fl.eq]
  have hnum := xnNum_exact hnx0 hv hL (by omega) hsg'
  refine (xn_run (Num := True) hg hsrt hP hnobj hnc hnan hgens hgens0 hi h4 hsz (fun _ => hnum) (fun _ => hx) ?_ hfuel).mono ?_ (fun _ _ h => h)
  · intro _ h1 h2
    obtain ⟨b, c, rfl, hc⟩ := hm h1 h2
    exact varsFin_of hc
  rintro m' s' ⟨b0, b, hb0, rfl, hrun⟩
  have hstart : ∃ c0, StandsFor b0 c0 ∧ ((A.memory = true ∧ ∃ b0, m = ⟨P.info.nx, b0⟩ ∧ StandsFor b0 c0) ∨
        ((A.memory = false ∨ m.n ≠ P.info.nx) ∧ NesStart ⟨lo, hi', A.force, s.pop.id.length⟩ sg s.pop.x s.pop.f c0)) := by
    have hres : ∀ b0, xnReset v P A s.pop = .ok b0 → (A.memory = false ∨ m.n ≠ P.info.nx) → ∃ c0, StandsFor b0 c0 ∧
        ((A.memory = true ∧ ∃ b0, m = ⟨P.info.nx, b0⟩ ∧ StandsFor b0 c0) ∨
        ((A.memory = false ∨ m.n ≠ P.info.nx) ∧ NesStart ⟨lo, hi', A.force, s.pop.id.length⟩ sg s.pop.x s.pop.f c0)) := by
      intro b0 h hc
      obtain ⟨c, h1, h2⟩ := xnReset_exact hv.op hnobj hnc hlo hhi hi (fun h => by rw [h] at h4; simp at h4) hsz hx hf hsg' h (lam := s.pop.id.length)
      exact ⟨c, h1, Or.inr ⟨hc, h2⟩⟩
    unfold xnInit at hb0
    split at hb0
    · rename_i h
      split at hb0
      · rename_i hmem
        exact hres b0 hb0 (Or.inl hmem)
      · rename_i hmem
        have hmem : A.memory = true := by simpa using hmem
        obtain ⟨bm, c, rfl, hc⟩ := hm hmem h
        cases hb0
        exact ⟨c, hc, Or.inl ⟨hmem, bm, rfl, hc⟩⟩
    · rename_i h
      exact hres b0 hb0 (Or.inr h)
  obtain ⟨c0, hc0, hst⟩ := hstart
  rcases hrun with ⟨-, hs, -⟩ | ⟨k, hk, hk0, -, ⟨mid, hs, hlast⟩, -⟩
  · obtain ⟨c, hc, hS⟩ := xnSteps_exact hlo hhi hnx0 hv hL (by omega) (a := xnSt P b0 s) hc0 _ _ hs
    exact ⟨c0, c, b, rfl, hc, hst, Or.inl hS⟩
  · obtain ⟨c, hc, hS⟩ := xnSteps_exact hlo hhi hnx0 hv hL (by omega) (a := xnSt P b0 s) hc0 _ _ hs
    obtain ⟨h1, h2⟩ := xnLast_exact hv.op hlo hhi hc hlast
    exact ⟨c0, c, b, rfl, h1, hst, Or.inr ⟨k - 1, by omega, _, hS, h2⟩⟩

end

end exact

/-! ### C107: memory -/

/-- C107. Without `memory` a run does not depend on the runs before. With it, it does not if the number of variables changed. -/
theorem C107_forget (v : XnEnv K σ) (P : AProb K) (A : Xnes K) (fuel : Nat) (m m' : XnMem K) (hgens : A.gens ≠ 0)
    (h : A.memory = false ∨ m.n ≠ P.info.nx ∧ m'.n ≠ P.info.nx) :
    xnEvolve v P A fuel m = xnEvolve v P A fuel m' := by
  have : ∀ p, xnInit v P A p m = xnInit v P A p m' := by
    intro p
    have hr : ∀ m : XnMem K, A.memory = false ∨ m.n ≠ P.info.nx → xnInit v P A p m = xnReset v P A p := by
      intro m h
      unfold xnInit
      split
      · rename_i hn
        rw [if_pos (h.resolve_right fun h => h hn)]
      · rfl
    rw [hr m (h.imp id And.left), hr m' (h.imp id And.right)]
  unfold xnEvolve
  simp only [this, if_neg hgens]

/-- C107. The first run of an algorithm with `memory` is the same as without, unless the problem has one variable.
Missing: problems with one variable. -/
theorem C107_first_partial (v : XnEnv K σ) (P : AProb K) (A : Xnes K) (fuel : Nat) (m : XnMem K) (hgens : A.gens ≠ 0) (hn : P.info.nx ≠ 1) :
    xnEvolve v P A fuel (xnFresh A) = xnEvolve v P { A with memory := false } fuel m := by
  have h1 : ∀ p, xnInit v P A p (xnFresh A) = xnReset v P A p := by
    intro p
    unfold xnInit
    rw [dif_neg]
    exact fun h => hn h.symm
  have h2 : ∀ p, xnInit v P { A with memory := false } p m = xnReset v P A p := by
    intro p
    unfold xnInit
    split
    · rw [if_pos rfl]; rfl
    · rfl
  have h3 : ∀ lam, xnGen v P { A with memory := false } lam = xnGen v P A lam := by
    intro lam
    funext g b
    rfl
  unfold xnEvolve
  simp only [h1, h2, h3, if_neg hgens]

/-! ### Examples -/

/-- two variables in [0, 10], the sum of squares as objective -/
def xnDemo : AProb ℚ :=
  ⟨{ P1 with nx := 2 }, [.fin 0, .fin 0], [.fin 10, .fin 10], 0, fun _ x => .ok [(x.map (fun a => Fl.mul a a)).foldl Fl.add (.fin 0)]⟩

/-- The identity for the logarithm, `1 + M` for the exponential of a matrix. -/
def xnDemoEnv : XnEnv ℚ (List ℚ) :=
  { algDemoEnv with d := sgaDist, lg := id, ex := id, mexp := fun M i j => Fl.add (laId _ i j) (M i j) }

def xnDemoSt : St ℚ (List ℚ) :=
  ⟨⟨[5, 6, 7, 8, 9], [[.fin 3, .fin 1], [.fin 1, .fin 1], [.fin 2, .fin 2], [.fin 5, .fin 0], [.fin 4, .fin 9]],
    [[.fin 10], [.fin 2], [.fin 8], [.fin 25], [.fin 97]], [.fin 1, .fin 1], [.fin 1], [], fun n => n, []⟩,
    [1 / 3, -2, 1 / 2, 1 / 5, 3 / 4, 1, -1 / 4, 1 / 3, 2 / 3, 1 / 2, 1 / 7, 1 / 9], []⟩

def xnDemoPars (memory force : Bool) : Xnes ℚ := ⟨2, .fin (-1), .fin (-1), .fin (1 / 4), .fin (-1), .fin 0, .fin 0, memory, force⟩

theorem xnDemo_box : FiniteBox xnDemo where
  bounds := ⟨by simp [xnDemo], rfl, by
    intro i l u h1 h2
    match i with
    | 0 => cases h1; cases h2; simp
    | 1 => cases h1; cases h2; simp
    | i + 2 => simp [xnDemo] at h1, by simp [xnDemo], by
    intro i a h h1
    simp [xnDemo] at h h1
    have : 2 ≤ i := by omega
    match i with
    | i + 2 => simp at h1, by
    intro i a h h1
    simp [xnDemo] at h h1
    have : 2 ≤ i := by omega
    match i with
    | i + 2 => simp at h1⟩
  nx := rfl
  finL := by intro w hw; simp [xnDemo] at hw; exact ⟨0, hw⟩
  finU := by intro w hw; simp [xnDemo] at hw; exact ⟨10, hw⟩

theorem xnDemo_inv : Inv xnDemo.info xnDemoSt.pop where
  wf := ⟨rfl, rfl, by decide +kernel, by decide +kernel⟩
  ch := Or.inr ⟨rfl, rfl⟩
  tol := rfl

theorem xnDemo_nan : NeverNan True xnDemo := by
  intro h x f hx hf
  cases hf
  simp only [List.mem_singleton]
  have key : ∀ (l : List (Fl ℚ)) (a : Fl ℚ), (∃ c, a = .fin c) → AllFin l → ∃ c, (l.map (fun a => Fl.mul a a)).foldl Fl.add a = .fin c := by
    intro l
    induction l with
    | nil => intro a h _; exact h
    | cons b l ih =>
      rintro a ⟨c, rfl⟩ hl
      obtain ⟨d, rfl⟩ := hl b (by simp)
      exact ih _ ⟨c + d * d, rfl⟩ (fun w hw => hl w (by simp [hw]))
  obtain ⟨c, hc⟩ := key x (.fin 0) ⟨0, rfl⟩ (hx trivial)
  rw [hc]
  simp

theorem xnDemo_fin : ∀ x ∈ xnDemoSt.pop.x, AllFin x := by
  intro x hx w hw
  simp only [xnDemoSt, List.mem_cons, List.not_mem_nil, or_false] at hx
  rcases hx with rfl | rfl | rfl | rfl | rfl <;> simp only [List.mem_cons, List.not_mem_nil, or_false] at hw <;>
    rcases hw with rfl | rfl <;> exact ⟨_, rfl⟩

theorem xnDemo_exact (memory force : Bool) : XnExact xnDemoEnv (xnDemoPars memory force) xnDemo.info.nx id id (fun M => 1 + M) xnDemoSt.pop.id.length
    ⟨1, 3 / 4, 1 / 4, nesWeights id xnDemoSt.pop.id.length⟩ where
  op := rfl
  int _ := rfl
  log _ _ := rfl
  exp M := by
    funext i j
    show Fl.add (laId _ i j) (flMat M i j) = _
    rw [laId_exact]
    rfl
  sqrt := by decide +kernel
  mu := by revert memory force; decide +kernel
  sigma := by revert memory force; decide +kernel
  b := by revert memory force; decide +kernel
  u := rfl

theorem xnDemo_num (memory force : Bool) : XnNum xnDemoEnv xnDemo (xnDemoPars memory force) xnDemoSt.pop.id.length :=
  xnNum_exact (by decide) (xnDemo_exact memory force) (fun _ _ _ _ h => h) (by decide) (sg := 1 / 2) (by simp [xnDemoPars, Fl.eq])

example : wp (xnEvolve xnDemoEnv xnDemo (xnDemoPars true true) 3 (xnFresh (xnDemoPars true true)))
    (fun _ s' => XnDone xnDemoEnv.op xnDemo (xnDemoPars true true) True xnDemoSt s') (FailedBy (XnBox True (xnDemoPars true true) xnDemo) xnDemo xnDemoSt)
    xnDemoSt :=
  C105_evolve_partial xnDemoEnv _ demoGen_lawful insSort_valid xnDemo xnDemo_box rfl rfl True xnDemo_nan _ (by decide) (by decide) xnDemoSt xnDemo_inv
    (by decide) (by decide) (fun _ => xnDemo_num _ _) (fun _ => xnDemo_fin) _ (fun _ _ h => by cases h) 3 (by decide)

/-- two generations; the population is not better than before -/
example : (xnEvolve xnDemoEnv xnDemo (xnDemoPars true false) 3 (xnFresh (xnDemoPars true false)) xnDemoSt).2.evs.length = 10 ∧
    (xnEvolve xnDemoEnv xnDemo (xnDemoPars true false) 3 (xnFresh (xnDemoPars true false)) xnDemoSt).2.pop.f ≠ xnDemoSt.pop.f := by
  decide +kernel

example := C106_evolve xnDemoEnv _ demoGen_lawful insSort_valid xnDemo xnDemo_box rfl rfl xnDemo_nan (xnDemoPars true false) (by decide) (by decide)
  xnDemoSt xnDemo_inv (by decide) (by decide) xnDemo_fin (by decide +kernel) ⟨fun _ => 0, fun _ => 10, false, 5⟩ (by decide +kernel) (by decide +kernel) rfl rfl
  id id (fun M => 1 + M) _ (xnDemo_exact true false) (fun _ _ _ _ h => h) (1 / 2) (by simp [xnDemoPars]) (xnFresh (xnDemoPars true false))
  (fun _ h => by cases h) 3 (by decide)

/-- with the logarithm of the reals, the weights of the default learning rates -/
example (lam : Nat) (h : 0 < lam) : (nesWeights Real.log lam).sum = 0 ∧ (nesWeights Real.log lam).Pairwise (· ≥ ·) :=
  ⟨C106_weights_sum Real.strictMonoOn_log h, (C106_weights_order Real.strictMonoOn_log h).2.1⟩

/-- the behaviour is undefined -/
def isUb {α : Type} : Outcome α → Bool
  | .ub => true
  | _ => false

theorem eq_ub {α : Type} : ∀ {o : Outcome α}, isUb o = true → o = .ub
  | .ub, _ => rfl

/-- the square, NaN above 4 -/
def xnNan : AProb ℚ := { algDemo with fit := fun _ x => .ok (x.map (fun a => if Fl.gt a (.fin 4) then .nan else Fl.mul a a)) }

/-- C105 (undefined). If the fitness function returns NaN for some of the points, the sort of the population has undefined behaviour. -/
theorem C105_undefined : ∃ (P : AProb ℚ) (A : Xnes ℚ) (x : List (Fl ℚ)), FiniteBox P ∧ P.info.nobj = 1 ∧ P.info.nc = 0 ∧
    xnCtor 1 (.fin (-1)) (.fin (-1)) (.fin (-1)) (.fin (-1)) (.fin 0) (.fin 0) false true = .ok A ∧
    InBox P.lb P.ub 0 x ∧ P.fit [] x = .ok [.nan] ∧ Inv P.info deDemoSt.pop ∧
    (xnEvolve xnDemoEnv P A 2 (xnFresh A) deDemoSt).1 = .ub ∧ (xnEvolve xnDemoEnv P A 2 (xnFresh A) deDemoSt).2.evs.length = 5 := by
  refine ⟨xnNan, ⟨1, .fin (-1), .fin (-1), .fin (-1), .fin (-1), .fin 0, .fin 0, false, true⟩, [.fin 5],
    ⟨algDemo_finiteBox.bounds, algDemo_finiteBox.nx, algDemo_finiteBox.finL, algDemo_finiteBox.finU⟩, rfl, rfl, by decide +kernel,
    deDemo_box _ (by decide +kernel), by decide +kernel, ⟨deDemo_inv.wf, deDemo_inv.ch, deDemo_inv.tol⟩, eq_ub (by decide +kernel), by decide +kernel⟩

/-- C105 (NaN). The constructor accepts `sigma0 = NaN`, and then, although bounds are enforced, points outside the bounds (NaN) are
evaluated. -/
theorem C105_nan : ∃ (A : Xnes ℚ) (r : User (List (Fl ℚ))),
    xnCtor 1 (.fin (-1)) (.fin (-1)) (.fin (-1)) Fl.nan (.fin 0) (.fin 0) false true = .ok A ∧
    (xnEvolve xnDemoEnv algDemo A 2 (xnFresh A) deDemoSt).2.evs[0]? = some ([Fl.nan], r) ∧
    ¬ InBox algDemo.lb algDemo.ub 0 [Fl.nan] := by
  refine ⟨⟨1, .fin (-1), .fin (-1), .fin (-1), .nan, .fin 0, .fin 0, false, true⟩, .ok [.nan], by decide +kernel, by decide +kernel, ?_⟩
  rintro ⟨_, h⟩
  have := (h 0 (.fin 0) (.fin 10) .nan rfl rfl rfl).2.1
  simp [Fl.le_def, Fl.cls] at this

/-- C107 (false). For a problem with one variable the first run with `memory` is not the run without: the distribution is the standard
normal distribution, centred at 0 whatever the bounds and the population. -/
theorem C107_false : ∃ r r' : User (List (Fl ℚ)), algDemo.info.nx = 1 ∧ deDemoSt.evs = [] ∧ deDemoSt.e.headD 0 = 1 / 3 ∧
    (xnEvolve xnDemoEnv algDemo (xnDemoPars true false) 3 (xnFresh (xnDemoPars true false)) deDemoSt).2.evs[0]? = some ([.fin (1 / 3)], r) ∧
    (xnEvolve xnDemoEnv algDemo (xnDemoPars false false) 3 (xnFresh (xnDemoPars false false)) deDemoSt).2.evs[0]? = some ([.fin (1 + 10 / 2 * (1 / 3))], r') :=
  ⟨.ok [.fin (1 / 9)], .ok [.fin (64 / 9)], by decide +kernel⟩

example : xnEvolve xnDemoEnv xnDemo (xnDemoPars true true) 3 (xnFresh (xnDemoPars true true)) =
    xnEvolve xnDemoEnv xnDemo { xnDemoPars true true with memory := false } 3 ⟨2, ⟨fun _ => .fin 7, laId 2, .fin 1⟩⟩ :=
  C107_first_partial _ _ _ _ _ (by decide) (by decide)

end Verif.Props
