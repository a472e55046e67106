import Verif.Proof.Cmaes
import Verif.Spec.Cmaes
import Verif.Props.Xnes
import Verif.Props.Nspso
import Verif.Props.Gradients
import Mathlib.LinearAlgebra.Matrix.Symmetric
import Mathlib.LinearAlgebra.Matrix.NonsingularInverse

/-!
# C108 to C112: a run of `cmaes`
-/

set_option autoImplicit false

namespace Verif.Props

open Verif Run Prob Pop Alg

variable {K σ : Type} [Field K] [LinearOrder K]

/-! ### C108: what is evaluated, and when a run ends -/

/-- C108. The rates are refused unless they are in `[0, 1]` or -1; NaN is accepted. The other parameters are not checked. -/
theorem C108_ctor (gens : Nat) (cc cs c1 cmu s0 ftol xtol : Fl K) (memory force : Bool) :
    (cmCtor gens cc cs c1 cmu s0 ftol xtol memory force = .ok ⟨gens, cc, cs, c1, cmu, s0, ftol, xtol, memory, force⟩ ∨
      cmCtor gens cc cs c1 cmu s0 ftol xtol memory force = .throws .invalidArgument) ∧
    (cmCtor gens cc cs c1 cmu s0 ftol xtol memory force = .throws .invalidArgument ↔
      ∃ r ∈ [cc, cs, c1, cmu], r ≠ .nan ∧ r ≠ .fin (-1) ∧ (r < .fin 0 ∨ .fin 1 < r)) := by
  have key : ∀ r : Fl K, cmBadRate r = true ↔ r ≠ .nan ∧ r ≠ .fin (-1) ∧ (r < .fin 0 ∨ .fin 1 < r) := by
    intro r
    cases r with
    | fin a => simp [cmBadRate, Fl.gt, Fl.lt, Fl.eq, and_comm, Fl.lt_def]
    | _ => simp [cmBadRate, Fl.gt, Fl.lt, Fl.eq, Fl.cls, Fl.lt_def]
  simp only [List.mem_cons, List.not_mem_nil, or_false, exists_eq_or_imp, exists_eq_left, ← key]
  unfold cmCtor
  split
  · rename_i h; simp [h]
  rename_i h1
  split
  · rename_i h; simp [h]
  rename_i h2
  split
  · rename_i h; simp [h]
  rename_i h3
  split
  · rename_i h; simp [h]
  rename_i h4
  simp [h1, h2, h3, h4]

/-- C108. `evolve` throws before anything happens if the problem is constrained or has several objectives, if there are fewer than
five individuals, or if a bound is not finite. -/
theorem C108_throws (v : CmEnv K σ) (P : AProb K) (A : Cmaes K) (bfe : Option (Batch K)) (fuel : Nat) (m : CmMem K) (s : St K σ)
    (h : P.info.nc ≠ 0 ∨ P.info.nf ≠ 1 ∨ s.pop.id.length < 5 ∨ (∃ a ∈ P.lb, a.isFinite = false) ∨ ∃ a ∈ P.ub, a.isFinite = false) :
    cmEvolve v P A bfe fuel m s = (.throws .invalidArgument, s) := by
  unfold cmEvolve
  show Run.bind _ _ _ = _
  unfold Run.bind
  dsimp only [Run.get]
  split
  · rfl
  split
  · rfl
  split
  · rfl
  split
  · rfl
  split
  · rfl
  · rename_i h1 h2 h3 h4 h5
    exfalso
    simp only [List.any_eq_true, Bool.not_eq_true', not_exists, not_and] at h4 h5
    rcases h with h | h | h | ⟨a, h, h'⟩ | ⟨a, h, h'⟩
    · exact h1 h
    · exact h2 h
    · exact h3 h
    · exact h4 a h h'
    · exact h5 a h h'

/-- C108. Nothing happens if there are no generations. -/
theorem C108_no_generations (v : CmEnv K σ) (P : AProb K) (A : Cmaes K) (bfe : Option (Batch K)) (fuel : Nat) (m : CmMem K) (s : St K σ) (h0 : A.gens = 0)
    (hnc : P.info.nc = 0) (hnf : P.info.nf = 1) (h5 : 5 ≤ s.pop.id.length) (hl : ∀ a ∈ P.lb, a.isFinite = true)
    (hu : ∀ a ∈ P.ub, a.isFinite = true) : cmEvolve v P A bfe fuel m s = (.ok m, s) := by
  unfold cmEvolve
  show Run.bind _ _ _ = _
  unfold Run.bind
  dsimp only [Run.get]
  rw [if_neg (by omega), if_neg (by omega), if_neg (by omega), if_neg, if_neg, if_pos h0]
  · rfl
  · simpa using hu
  · simpa using hl

/-- What a run does. -/
structure CmDone (P : AProb K) (A : Cmaes K) (s s' : St K σ) : Prop where
  /-- the individuals keep their IDs, the population is sound -/
  inv : Inv P.info s'.pop
  id : s'.pop.id = s.pop.id
  /-- either nothing was evaluated and the chromosomes and fitnesses are those of before, or -/
  calls : (s'.evs = s.evs ∧ s'.pop.x = s.pop.x ∧ s'.pop.f = s.pop.f) ∨
    /- `k` times as many evaluations as individuals, none of which failed, and the population are the last ones -/
    ∃ (k : Nat) (old : List (ECall K)), 1 ≤ k ∧ k ≤ A.gens ∧ s'.evs = s.evs ++ old ++ asCalls (individuals s'.pop) ∧
    old.length = (k - 1) * s.pop.id.length ∧ (individuals s'.pop).length = s.pop.id.length ∧
    (∀ p ∈ old, ∃ f, p.2 = .ok f) ∧
    (∀ p ∈ old ++ asCalls (individuals s'.pop), (∃ h, p.2 = P.fit h p.1) ∧ p.1.length = P.info.nx ∧
      /- with `force_bounds`, each component is within the bounds unless it is NaN -/
      (A.force = true → ∀ (j : Nat) (l u w : Fl K), P.lb[j]? = some l → P.ub[j]? = some u → p.1[j]? = some w → w ≠ .nan → l ≤ w ∧ w ≤ u))

theorem cmTurn_len {v : CmEnv K σ} {P : AProb K} {A : Cmaes K} {lam : Nat} {a b : CmState K P.info.nx} {zs : List (Vec K P.info.nx)}
    (h : CmTurn v P A lam a zs b) : (asCalls (b.xs.zip b.fs)).length = lam := by
  simp [asCalls, h.xl, h.fl]

theorem cmSteps_evs {v : CmEnv K σ} {P : AProb K} {A : Cmaes K} {lam : Nat} {a : CmState K P.info.nx} :
    ∀ (k : Nat) (b : CmState K P.info.nx), Steps (CmFull v P A lam) k a b → ∃ new, b.evs = a.evs ++ new ∧ new.length = k * lam ∧
      (∀ p ∈ new, ∃ f, p.2 = .ok f) := by
  intro k
  induction k with
  | zero => intro b h; cases h; exact ⟨[], by simp, by simp, by simp⟩
  | succ k ih =>
    intro c h
    cases h with
    | snoc h hF =>
      rename_i b
      obtain ⟨new, he, hl, hok⟩ := ih b h
      obtain ⟨zs, idx, -, -, -, hT, -, -⟩ := hF
      refine ⟨new ++ asCalls (c.xs.zip c.fs), by rw [hT.ev, he, List.append_assoc], ?_, ?_⟩
      · rw [List.length_append, hl, cmTurn_len hT]; ring
      · intro p hp
        rcases List.mem_append.mp hp with hp | hp
        · exact hok p hp
        · obtain ⟨q, _, rfl⟩ := List.mem_map.mp hp
          exact ⟨q.2, rfl⟩

theorem cmDone_of {v : CmEnv K σ} {P : AProb K} {A : Cmaes K} {s s' : St K σ} {b b' : CmVars K P.info.nx} {k : Nat}
    (hk' : k ≤ A.gens) {new : List (ECall K)} (ht : TrackedBy (CmBox A P) P s new s')
    (hm : Steps (CmFull v P A s.pop.id.length) k (cmSt P b s) (cmSt P b' s')) : CmDone P A s s' := by
  refine ⟨ht.inv, ht.id, ?_⟩
  generalize ha : cmSt P b s = a at hm
  generalize hb : cmSt P b' s' = c at hm
  cases hm with
  | refl =>
    subst ha
    simp only [cmSt, CmState.mk.injEq] at hb
    exact Or.inl ⟨hb.2.2.2, hb.2.1, hb.2.2.1⟩
  | snoc h hF =>
    rename_i n m
    subst ha
    subst hb
    obtain ⟨old, he, hl, hok⟩ := cmSteps_evs _ _ h
    obtain ⟨zs, idx, -, -, -, hT, -, -⟩ := hF
    have hev := hT.ev
    rw [he] at hev
    have hnew : new = old ++ asCalls (individuals s'.pop) := by
      have := ht.evs
      rw [show s'.evs = _ from hev] at this
      simp only [cmSt, List.append_assoc, List.append_cancel_left_eq] at this
      exact this.symm
    refine Or.inr ⟨n + 1, old, by omega, hk', hev, by simpa using hl, ?_, hok, ?_⟩
    · have := hT.xl
      have := hT.fl
      simp only [cmSt] at *
      simp [individuals, *]
    · rw [← hnew]
      intro p hp
      exact ⟨ht.user p hp, ht.box p hp⟩

section
variable [IsStrictOrderedRing K]

/-- C108. A run of `cmaes` evaluates, in every generation, as many new points as there are individuals, and they replace the
individuals in turn whatever their fitness; there are at most `gens` generations, possibly none. With `force_bounds`
each component of a point evaluated is within the bounds unless it is NaN. If the run fails, then because the user's function or the
batch evaluator did. Whatever the parameters (also NaN) and the fitness (also NaN), the behaviour is defined. -/
theorem C108_evolve_partial (v : CmEnv K σ) (rep : K → Prop) (hg : v.g.Lawful rep) (hsrt : ValidSort v.srt) (P : AProb K) (hP : FiniteBox P)
    (hnobj : P.info.nobj = 1) (hnc : P.info.nc = 0) (A : Cmaes K) (hgens : A.gens + 1 < 2 ^ 32) (hgens0 : A.gens ≠ 0)
    (bfe : Option (Batch K)) (hok : ∀ b, bfe = some b → BatchOk P b)
    (s : St K σ) (hi : Inv P.info s.pop) (h5 : 5 ≤ s.pop.id.length) (hsz : s.pop.id.length ≤ 2 ^ 63) (m : CmMem K) (fuel : Nat) (hfuel : A.gens < fuel) :
    wp (cmEvolve v P A bfe fuel m) (fun _ s' => CmDone P A s s') (CmFailed (CmBox A P) P bfe s) s := by
  refine (cm_run hg hsrt hP hnobj hnc hgens hgens0 hok hi h5 hsz m hfuel).mono ?_ (fun _ _ h => h)
  rintro m' s' ⟨b0, b, -, -, ⟨⟨new, ht, -⟩, hs⟩ | ⟨k, hk, hk0, ⟨new, ht, -⟩, a, ha, zs, -, -, rfl⟩⟩
  · exact cmDone_of le_rfl ht hs
  · exact cmDone_of (by omega) ht ha

end

/-! ### C109: the search distribution, in exact arithmetic -/

/-- the members of the algorithm stand for a state of the strategy -/
structure CmStands {n : Nat} (b : CmVars K n) (c : Cma K n) : Prop where
  sigma : b.sigma = .fin c.sigma
  mean : b.mean = flVec c.mean
  B : b.B = flMat c.B
  D : b.D = flMat c.D
  C : b.C = flMat c.C
  S : b.isC = flMat c.S
  pc : b.pc = flVec c.pc
  ps : b.ps = flVec c.ps
  count : b.counteval = c.count
  last : b.eigeneval = c.last

/-- What is needed of the functions for the formulas to hold: exact arithmetic, a logarithm, a square root, an
exponential, a power, and an eigenvalue solver that fails or returns numbers. -/
structure CmFns (v : CmEnv K σ) (F : CmaFns K) : Prop where
  op : v.op = Fl.exact K
  int : ∀ z : ℤ, v.g.ofInt z = z
  log : ∀ a : K, 0 < a → v.lg (.fin a) = .fin (F.L a)
  mono : StrictMonoOn F.L (Set.Ioi 0)
  sqrt : ∀ a : K, 0 ≤ a → v.sq (.fin a) = .fin (F.R a)
  sqrtPos : ∀ a : K, 0 < a → 0 < F.R a
  exp : ∀ a : K, v.ex (.fin a) = .fin (F.X a)
  expPos : ∀ a : K, 0 < F.X a
  pow : ∀ a b : K, 0 ≤ a → 0 < b → v.pw (.fin a) (.fin b) = .fin (F.W a b)
  powLt : ∀ a b : K, 0 ≤ a → a < 1 → 0 < b → F.W a b < 1
  eig : ∀ {n : Nat} (M : Matrix (Fin n) (Fin n) K), v.eig (flMat M) = (F.Ei M).map (fun p => (flMat p.1, flVec p.2))

/-- A parameter: the default for -1. -/
def CmPar (given : Fl K) (default value : K) : Prop := .fin value = if given = .fin (-1) then Fl.fin default else given

/-- The weights and rates are those given or, for -1, the defaults; they are within the bounds that the constructor
requires, and `cs` and one of `c1` and `cmu` are not zero. -/
structure CmRates (A : Cmaes K) (F : CmaFns K) (n lam : Nat) (q : CmaPars K) : Prop where
  w : q.w = cmaWeights F.L (lam / 2)
  mueff : q.mueff = cmaMueff q.w
  cc : CmPar A.cc ((4 + q.mueff / n) / (n + 4 + 2 * q.mueff / n)) q.cc
  cs : CmPar A.cs ((q.mueff + 2) / (n + q.mueff + 5)) q.cs
  c1 : CmPar A.c1 (2 / ((n + 13 / 10) * (n + 13 / 10) + q.mueff)) q.c1
  cmu : CmPar A.cmu (2 * (q.mueff - 2 + 1 / q.mueff) / ((n + 2) * (n + 2) + q.mueff)) q.cmu
  damps : q.damps = 1 + 2 * max 0 (F.R ((q.mueff - 1) / (n + 1)) - 1) + q.cs
  chi : q.chi = F.R n * (1 - 1 / (4 * n) + 1 / (21 * n * n))
  ccIn : 0 ≤ q.cc ∧ q.cc ≤ 1
  csIn : 0 < q.cs ∧ q.cs ≤ 1
  adapt : 0 < q.c1 + q.cmu

section exact

theorem ex_add (a b : K) : (Fl.exact K).add (.fin a) (.fin b) = .fin (a + b) := rfl
theorem ex_mul (a b : K) : (Fl.exact K).mul (.fin a) (.fin b) = .fin (a * b) := rfl
theorem ex_sub (a b : K) : (Fl.exact K).sub (.fin a) (.fin b) = .fin (a - b) := congrArg Fl.fin (sub_eq_add_neg _ _).symm
theorem ex_div (a : K) {b : K} (h : b ≠ 0) : (Fl.exact K).div (.fin a) (.fin b) = .fin (a / b) := by
  show Fl.div (.fin a) (.fin b) = _
  simp [Fl.div, h]

theorem ex_max (a b : K) : Fl.stdMax (.fin a) (.fin b) = Fl.fin (max a b) := by
  unfold Fl.stdMax
  simp only [Fl.lt, decide_eq_true_eq]
  split
  · rename_i h; rw [max_eq_right h.le]
  · rename_i h; rw [max_eq_left (not_lt.mp h)]

theorem ex_min (a b : K) : Fl.stdMin (.fin a) (.fin b) = Fl.fin (min a b) := by
  unfold Fl.stdMin
  simp only [Fl.lt, decide_eq_true_eq]
  split
  · rename_i h; rw [min_eq_right h.le]
  · rename_i h; rw [min_eq_left (not_lt.mp h)]

theorem fold_exact (l : List K) (a : K) : (l.map Fl.fin).foldl (Fl.exact K).add (.fin a) = .fin (a + l.sum) := by
  induction l generalizing a with
  | nil => simp
  | cons x l ih => rw [List.map_cons, List.foldl_cons, ex_add, ih, List.sum_cons, add_assoc]

theorem fold2_exact (l : List K) (a : K) : (l.map Fl.fin).foldl (fun s x => (Fl.exact K).add s ((Fl.exact K).mul x x)) (.fin a) =
    .fin (a + (l.map (fun x => x * x)).sum) := by
  induction l generalizing a with
  | nil => simp
  | cons x l ih => rw [List.map_cons, List.foldl_cons, ex_mul, ex_add, ih, List.map_cons, List.sum_cons, add_assoc]

theorem cmMean_exact {n : Nat} (l : List (K × (Fin n → K))) : cmMean (Fl.exact K) (l.map flPair) = flVec (cmaMean l) := by
  unfold cmaMean
  have hp : ∀ p : K × (Fin n → K), (fun i => (Fl.exact K).mul ((flPair p).2 i) (flPair p).1) = flVec (p.1 • p.2) := by
    intro p
    funext i
    exact congrArg Fl.fin (mul_comm _ _)
  cases l with
  | nil => rfl
  | cons p l =>
    have key : ∀ (l : List (K × (Fin n → K))) (c : Fin n → K),
        (l.map flPair).foldl (fun c q i => (Fl.exact K).add (c i) ((Fl.exact K).mul (q.2 i) q.1)) (flVec c) =
          flVec (c + (l.map (fun p => p.1 • p.2)).sum) := by
      intro l
      induction l with
      | nil => intro c; simp
      | cons q l ih =>
        intro c
        rw [List.map_cons, List.foldl_cons, List.map_cons, List.sum_cons, ← add_assoc, ← ih]
        congr 1
        funext i
        rw [show (Fl.exact K).mul ((flPair q).2 i) (flPair q).1 = flVec (q.1 • q.2) i from congrFun (hp q) i]
        rfl
    rw [List.map_cons, List.map_cons, List.sum_cons, ← key]
    unfold cmMean
    dsimp only
    rw [hp]

theorem cmOuter_exact {n : Nat} (m : Fin n → K) (p : K × (Fin n → K)) :
    cmOuter (Fl.exact K) (flVec m) (flPair p) = flMat (p.1 • Matrix.vecMulVec (p.2 - m) (p.2 - m)) := by
  funext i j
  unfold cmOuter flPair flVec
  dsimp only
  rw [ex_sub, ex_sub, ex_mul, ex_mul]
  unfold flMat
  rw [Matrix.smul_apply, Matrix.vecMulVec_apply]
  exact congrArg Fl.fin (mul_comm _ _)

theorem cmCov_exact {n : Nat} (m : Fin n → K) (l : List (K × (Fin n → K))) :
    cmCov (Fl.exact K) (flVec m) (l.map flPair) = flMat (cmaCov m l) := by
  unfold cmaCov
  cases l with
  | nil => rfl
  | cons p l =>
    have key : ∀ (l : List (K × (Fin n → K))) (c : Matrix (Fin n) (Fin n) K),
        (l.map flPair).foldl (fun c q i j => (Fl.exact K).add (c i j) (cmOuter (Fl.exact K) (flVec m) q i j)) (flMat c) =
          flMat (c + (l.map (fun p => p.1 • Matrix.vecMulVec (p.2 - m) (p.2 - m))).sum) := by
      intro l
      induction l with
      | nil => intro c; simp
      | cons q l ih =>
        intro c
        rw [List.map_cons, List.foldl_cons, List.map_cons, List.sum_cons, ← add_assoc, ← ih, cmOuter_exact]
        rfl
    rw [List.map_cons, List.map_cons, List.sum_cons, ← key, ← cmOuter_exact]
    rfl

theorem cmMove_exact {n : Nat} {b : CmVars K n} {c : Cma K n} (hb : CmStands b c) (z : Fin n → K) :
    cmMove (Fl.exact K) b (flVec z) = flVec ((cmaDist c).A.mulVec z) := by
  unfold cmMove cmaDist
  rw [hb.sigma, hb.B, hb.D, show (fun i j => (Fl.exact K).mul (.fin c.sigma) (flMat c.B i j)) = flMat (c.sigma • c.B) from rfl, laMul_exact,
    laApply_exact, Matrix.smul_mul]

theorem norm_exact {n : Nat} (sq : Fl K → Fl K) (x : Fin n → K) : laNorm (Fl.exact K) sq (flVec x) = sq (.fin (∑ j, x j * x j)) := by
  unfold laNorm
  rw [show (fun j => (Fl.exact K).mul (flVec x j) (flVec x j)) = flVec (fun j => x j * x j) from rfl, laSum_exact]

section
variable [IsStrictOrderedRing K]

theorem cmaRaw_pos {L : K → K} (hL : StrictMonoOn L (Set.Ioi 0)) {mu k : Nat} (h : k < mu) : 0 < L (mu + 1 / 2) - L (k + 1) := by
  have h1 : (k : K) + 1 ≤ mu := by exact_mod_cast h
  refine sub_pos.mpr (hL ?_ ?_ ?_)
  · simp only [Set.mem_Ioi]; positivity
  · simp only [Set.mem_Ioi]; positivity
  · have : (0 : K) < 1 / 2 := by norm_num
    linarith

theorem cmaRaw_sum {L : K → K} (hL : StrictMonoOn L (Set.Ioi 0)) {mu : Nat} (h0 : 0 < mu) :
    0 < ((List.range mu).map (fun k : Nat => L (mu + 1 / 2) - L (k + 1))).sum := by
  refine List.sum_pos _ ?_ ?_
  · intro x hx
    obtain ⟨k, hk, rfl⟩ := List.mem_map.mp hx
    exact cmaRaw_pos hL (List.mem_range.mp hk)
  · simp; omega

/-- C109. The weights are positive, they decrease, and they sum up to one. -/
theorem C109_weights {L : K → K} (hL : StrictMonoOn L (Set.Ioi 0)) {mu : Nat} (h0 : 0 < mu) :
    (cmaWeights L mu).length = mu ∧ (cmaWeights L mu).sum = 1 ∧ (∀ w ∈ cmaWeights L mu, 0 < w) ∧ (cmaWeights L mu).Pairwise (· > ·) := by
  have hs := cmaRaw_sum hL h0
  unfold cmaWeights
  dsimp only
  obtain ⟨S, hS⟩ : ∃ S, S = ((List.range mu).map (fun k : Nat => L (mu + 1 / 2) - L (k + 1))).sum := ⟨_, rfl⟩
  have key : ∀ (c : K) (l : List K), (l.map (fun a => a / c)).sum = l.sum / c := by
    intro c l
    induction l with
    | nil => simp
    | cons a l ih => rw [List.map_cons, List.sum_cons, ih, List.sum_cons]; ring
  refine ⟨by simp, ?_, ?_, ?_⟩
  · rw [key, div_self hs.ne']
  · intro w hw
    obtain ⟨a, ha, rfl⟩ := List.mem_map.mp hw
    obtain ⟨k, hk, rfl⟩ := List.mem_map.mp ha
    exact div_pos (cmaRaw_pos hL (List.mem_range.mp hk)) hs
  · rw [List.map_map, List.pairwise_map]
    refine List.pairwise_lt_range.imp ?_
    intro i j hij
    have hij' : (i : K) < j := by exact_mod_cast hij
    have h1 := hL (a := (i : K) + 1) (b := (j : K) + 1) (by simp only [Set.mem_Ioi]; positivity) (by simp only [Set.mem_Ioi]; positivity) (by linarith)
    exact div_lt_div_of_pos_right (by linarith) hs

theorem sum_sq_le : ∀ {l : List K}, (∀ w ∈ l, 0 < w) → l.sum ≤ 1 → (l.map (fun a => a * a)).sum ≤ l.sum := by
  intro l
  induction l with
  | nil => simp
  | cons a l ih =>
    intro h hs
    rw [List.sum_cons] at hs
    have h0 : 0 ≤ l.sum := List.sum_nonneg fun w hw => (h w (by simp [hw])).le
    have ha := h a (by simp)
    have := ih (fun w hw => h w (by simp [hw])) (by linarith)
    rw [List.map_cons, List.sum_cons, List.sum_cons]
    nlinarith

/-- C109. The variance effective selection mass is at least one. -/
theorem C109_mueff {L : K → K} (hL : StrictMonoOn L (Set.Ioi 0)) {mu : Nat} (h0 : 0 < mu) : 1 ≤ cmaMueff (cmaWeights L mu) := by
  obtain ⟨h1, h2, h3, -⟩ := C109_weights hL h0
  have hle := sum_sq_le h3 h2.le
  have hpos : 0 < ((cmaWeights L mu).map (fun a => a * a)).sum := by
    refine List.sum_pos _ ?_ ?_
    · intro x hx
      obtain ⟨w, hw, rfl⟩ := List.mem_map.mp hx
      exact mul_pos (h3 w hw) (h3 w hw)
    · intro h
      have := congrArg List.length h
      simp [h1] at this
      omega
  unfold cmaMueff
  rw [le_div_iff₀ hpos]
  linarith

/-- C109. The default rates are within the bounds that the constructor requires of rates given, except that `cmu` may
be greater than 1, see `C110_false`. -/
theorem C109_defaults (F : CmaFns K) (hL : StrictMonoOn F.L (Set.Ioi 0)) {n mu : Nat} (hn : 0 < n) (h0 : 0 < mu) :
    let q := cmaDefaults F n mu
    (0 < q.cc ∧ q.cc ≤ 1) ∧ (0 < q.cs ∧ q.cs < 1) ∧ (0 < q.c1 ∧ q.c1 < 1) ∧ 0 ≤ q.cmu := by
  have hm := C109_mueff hL h0
  have hn' : (1 : K) ≤ n := by exact_mod_cast hn
  unfold cmaDefaults
  dsimp only
  generalize cmaMueff (cmaWeights F.L mu) = m at hm
  have hmn : 0 < m / n := by positivity
  have h1 : m - 2 + 1 / m = (m - 1) * (m - 1) / m := by
    have : m ≠ 0 := by positivity
    field_simp
    ring
  refine ⟨⟨by positivity, ?_⟩, ⟨by positivity, ?_⟩, ⟨by positivity, ?_⟩, ?_⟩
  · rw [div_le_one (by positivity), mul_div_assoc]
    linarith
  · rw [div_lt_one (by positivity)]
    linarith
  · rw [div_lt_one (by positivity)]
    nlinarith
  · rw [h1]
    have : 0 ≤ (m - 1) * (m - 1) := mul_self_nonneg _
    positivity

/-- C109. With -1 for all rates, they are the defaults. -/
theorem C109_rates (F : CmaFns K) (hL : StrictMonoOn F.L (Set.Ioi 0)) {n lam : Nat} (hn : 0 < n) (h2 : 2 ≤ lam) (A : Cmaes K) (h : A.cc = .fin (-1))
    (hs : A.cs = .fin (-1)) (h1 : A.c1 = .fin (-1)) (hm : A.cmu = .fin (-1)) : CmRates A F n lam (cmaDefaults F n (lam / 2)) := by
  obtain ⟨⟨a1, a2⟩, ⟨b1, b2⟩, ⟨c1, -⟩, d1⟩ := C109_defaults F hL hn (show 0 < lam / 2 by omega)
  refine ⟨rfl, rfl, ?_, ?_, ?_, ?_, rfl, rfl, ⟨a1.le, a2⟩, ⟨b1, b2.le⟩, by linarith⟩
  · unfold CmPar; rw [if_pos h]; rfl
  · unfold CmPar; rw [if_pos hs]; rfl
  · unfold CmPar; rw [if_pos h1]; rfl
  · unfold CmPar; rw [if_pos hm]; rfl

theorem cmWeights_exact {v : CmEnv K σ} {F : CmaFns K} (hF : CmFns v F) {mu : Nat} (h0 : 0 < mu) : cmWeights v mu = (cmaWeights F.L mu).map .fin := by
  have hint : ∀ k : Nat, v.g.ofInt k = (k : K) := fun k => by rw [hF.int]; simp
  have hraw : ∀ k : Nat, cmRaw v mu k = .fin (F.L (mu + 1 / 2) - F.L (k + 1)) := by
    intro k
    unfold cmRaw
    rw [hF.op, hint, hint, ex_add, ex_add, hF.log _ (by positivity), hF.log _ (by positivity), ex_sub]
  have hs := cmaRaw_sum hF.mono h0
  unfold cmWeights cmaWeights
  dsimp only
  have he : (List.range mu).map (cmRaw v mu) = ((List.range mu).map (fun k : Nat => F.L (mu + 1 / 2) - F.L (k + 1))).map .fin := by
    rw [List.map_map]
    exact List.map_congr_left fun k _ => hraw k
  rw [he, hF.op]
  generalize (List.range mu).map (fun k : Nat => F.L (mu + 1 / 2) - F.L (k + 1)) = raw at hs ⊢
  rw [show (Fl.exact K).zero = .fin 0 from rfl, fold_exact, zero_add, List.map_map, List.map_map]
  refine List.map_congr_left fun a _ => ?_
  exact ex_div a hs.ne'

/-- The coefficients as computed. -/
structure CmCoefIs (co : CmCoef K) (q : CmaPars K) : Prop where
  mueff : co.mueff = .fin q.mueff
  cc : co.cc = .fin q.cc
  cs : co.cs = .fin q.cs
  c1 : co.c1 = .fin q.c1
  cmu : co.cmu = .fin q.cmu
  damps : co.damps = .fin q.damps
  chi : co.chiN = .fin q.chi
  mueffPos : 1 ≤ q.mueff
  dampsPos : 0 < q.damps
  chiPos : 0 < q.chi

omit [IsStrictOrderedRing K] in
theorem cmPar_if {given : Fl K} {d x : K} (h : CmPar given d x) {e : Fl K} (he : e = .fin d) :
    (if Fl.eq given (.fin (-1)) then e else given) = .fin x := by
  unfold CmPar at h
  rw [h, he]
  simp only [eq_fin]

theorem cmCoef_exact {v : CmEnv K σ} {F : CmaFns K} (hF : CmFns v F) {A : Cmaes K} {n lam : Nat} (hn : 0 < n) (hlam : 2 ≤ lam) {q : CmaPars K}
    (hq : CmRates A F n lam q) : CmCoefIs (cmCoef v A n lam) q := by
  have h0 : 0 < lam / 2 := by omega
  have hm : 1 ≤ q.mueff := by rw [hq.mueff, hq.w]; exact C109_mueff hF.mono h0
  have hn' : (1 : K) ≤ n := by exact_mod_cast hn
  have hn0 : (n : K) ≠ 0 := by positivity
  have hint : v.g.ofInt n = (n : K) := by rw [hF.int]; simp
  obtain ⟨g1, g2, g3, -⟩ := C109_weights hF.mono h0
  have hpos : 0 < (q.w.map (fun a => a * a)).sum := by
    rw [hq.w]
    refine List.sum_pos _ ?_ ?_
    · intro x hx
      obtain ⟨w, hw, rfl⟩ := List.mem_map.mp hx
      exact mul_pos (g3 w hw) (g3 w hw)
    · intro h
      have := congrArg List.length h
      simp [g1] at this
      omega
  have hmu : cmMueff v (cmWeights v (lam / 2)) = .fin q.mueff := by
    unfold cmMueff
    rw [cmWeights_exact hF h0, ← hq.w, hF.op, show (Fl.exact K).zero = .fin 0 from rfl, fold2_exact, zero_add, ex_div _ hpos.ne', hq.mueff]
    rfl
  have hcs : cmCs v A (.fin (n : K)) (.fin q.mueff) = .fin q.cs := by
    unfold cmCs
    refine cmPar_if hq.cs ?_
    rw [hF.op, ex_add, ex_add, ex_add, ex_div _ (by positivity)]
  have hpar : 0 ≤ (q.mueff - 1) / (n + 1) := div_nonneg (by linarith) (by positivity)
  unfold cmCoef
  dsimp only
  rw [hint, hmu, hcs]
  refine ⟨rfl, ?_, rfl, ?_, ?_, ?_, ?_, hm, ?_, ?_⟩
  · unfold cmCc
    refine cmPar_if hq.cc ?_
    rw [hF.op, ex_div _ hn0, ex_mul, ex_div _ hn0, ex_add, ex_add, ex_add, ex_div _ (by positivity)]
  · unfold cmC1
    refine cmPar_if hq.c1 ?_
    rw [hF.op, ex_add, ex_mul, ex_add, ex_div _ (by positivity)]
  · unfold cmCmu
    refine cmPar_if hq.cmu ?_
    rw [hF.op, ex_div _ (by positivity : q.mueff ≠ 0), ex_sub, ex_add, ex_mul, ex_add, ex_mul, ex_add, ex_div _ (by positivity)]
  · unfold cmDamps
    rw [hF.op, ex_sub, ex_add, ex_div _ (by positivity), hF.sqrt _ hpar, ex_sub, ex_max, ex_mul, ex_add, ex_add, hq.damps]
  · unfold cmChiN
    rw [hF.op, hF.sqrt _ (by positivity), ex_mul, ex_mul, ex_mul, ex_div _ (by positivity), ex_div _ (by positivity), ex_sub, ex_add, ex_mul, hq.chi]
  · rw [hq.damps]
    have := le_max_left (0 : K) (F.R ((q.mueff - 1) / (n + 1)) - 1)
    have := hq.csIn.1
    linarith
  · rw [hq.chi]
    refine mul_pos (hF.sqrtPos _ (by positivity)) ?_
    have h1 : 1 / (4 * (n : K)) ≤ 1 / 4 := by
      rw [div_le_div_iff₀ (by positivity) (by norm_num)]
      linarith
    have h2 : 0 < 1 / (21 * (n : K) * n) := by positivity
    linarith

theorem cmPs_exact {v : CmEnv K σ} {F : CmaFns K} (hF : CmFns v F) {co : CmCoef K} {q : CmaPars K} (hc : CmCoefIs co q) (hcs : 0 ≤ q.cs ∧ q.cs ≤ 1) {n : Nat}
    {b : CmVars K n} {c : Cma K n} (hb : CmStands b c) (hs : 0 < c.sigma) (dm : Fin n → K) :
    cmPs v co b (flVec dm) = flVec (cmaPs F q c ((1 / c.sigma) • dm)) := by
  have hm := hc.mueffPos
  have hr : 0 ≤ q.cs * (2 - q.cs) * q.mueff := mul_nonneg (mul_nonneg hcs.1 (by linarith)) (by linarith)
  unfold cmPs cmaPs
  dsimp only
  rw [hc.cs, hc.mueff, hb.ps, hb.sigma, hb.S, hF.op, ex_sub, ex_sub, ex_mul, ex_mul, hF.sqrt _ hr,
    show (fun i j => (Fl.exact K).mul (.fin (F.R (q.cs * (2 - q.cs) * q.mueff))) (flMat c.S i j)) = flMat (F.R (q.cs * (2 - q.cs) * q.mueff) • c.S) from rfl,
    laApply_exact]
  funext i
  unfold flVec
  rw [ex_mul, ex_div _ hs.ne', ex_add]
  congr 1
  simp only [Pi.add_apply, Pi.smul_apply, smul_eq_mul, Matrix.mulVec_smul, Matrix.smul_mulVec]
  ring

theorem cmHsig_exact {v : CmEnv K σ} {F : CmaFns K} (hF : CmFns v F) {co : CmCoef K} {q : CmaPars K} (hc : CmCoefIs co q) (hcs : 0 < q.cs ∧ q.cs ≤ 1) {n : Nat}
    (hn : 0 < n) {lam count : Nat} (hlam : 0 < lam) (hcount : 0 < count) (ps : Fin n → K) :
    cmHsig v co lam count (flVec ps) = decide (cmaShort F q lam count ps) := by
  have hint : ∀ k : Nat, v.g.ofInt k = (k : K) := fun k => by rw [hF.int]; simp
  have hn' : (n : K) ≠ 0 := by positivity
  have hl' : (0 : K) < lam := by exact_mod_cast hlam
  have hc' : (0 : K) < count := by exact_mod_cast hcount
  have hb : 0 < 2 * (count : K) / lam := by positivity
  have hw := hF.powLt (1 - q.cs) (2 * count / lam) (by linarith) (by linarith) hb
  unfold cmHsig cmaShort
  dsimp only
  rw [hF.op, hc.cs, hint, hint, hint, ex_sub, ex_mul, ex_div _ hl'.ne', hF.pow _ _ (by linarith) hb, ex_sub,
    show (fun j => (Fl.exact K).mul (flVec ps j) (flVec ps j)) = flVec (fun j => ps j * ps j) from rfl, laSum_exact, ex_div _ hn', ex_div _ (by linarith),
    ex_add, ex_div _ (by positivity), ex_add]
  rfl

theorem cmPc_exact {v : CmEnv K σ} {F : CmaFns K} (hF : CmFns v F) {co : CmCoef K} {q : CmaPars K} (hc : CmCoefIs co q) (hcc : 0 ≤ q.cc ∧ q.cc ≤ 1) {n : Nat}
    {b : CmVars K n} {c : Cma K n} (hb : CmStands b c) (hs : 0 < c.sigma) (dm : Fin n → K) (h : K) :
    cmPc v co b (flVec dm) (.fin h) = flVec (cmaPc F q c ((1 / c.sigma) • dm) h) := by
  have hm := hc.mueffPos
  have hr : 0 ≤ q.cc * (2 - q.cc) * q.mueff := mul_nonneg (mul_nonneg hcc.1 (by linarith)) (by linarith)
  unfold cmPc cmaPc
  dsimp only
  rw [hc.cc, hc.mueff, hb.pc, hb.sigma, hF.op, ex_sub, ex_sub, ex_mul, ex_mul, hF.sqrt _ hr, ex_mul]
  funext i
  unfold flVec
  rw [ex_mul, ex_mul, ex_div _ hs.ne', ex_add]
  congr 1
  simp only [Pi.add_apply, Pi.smul_apply, smul_eq_mul]
  ring

theorem cmC_exact {v : CmEnv K σ} {F : CmaFns K} (hF : CmFns v F) {co : CmCoef K} {q : CmaPars K} (hc : CmCoefIs co q) {n : Nat}
    {b : CmVars K n} {c : Cma K n} (hb : CmStands b c) (hs : 0 < c.sigma) (l : List (K × (Fin n → K))) (pc : Fin n → K) (h : K) :
    cmC v co b (l.map flPair) (flVec pc) (.fin h) = flMat (cmaC q c l pc h) := by
  unfold cmC cmaC
  dsimp only
  rw [hc.cc, hc.c1, hc.cmu, hb.sigma, hb.C, hb.mean, hF.op, ex_sub, ex_sub, ex_mul, cmCov_exact, ex_sub, ex_mul, ex_sub, ex_mul]
  funext i j
  unfold flVec flMat
  rw [ex_mul, ex_div _ (mul_pos hs hs).ne', ex_mul, ex_mul, ex_mul, ex_add, ex_add, ex_mul, ex_add]
  congr 1
  simp only [Matrix.add_apply, Matrix.smul_apply, smul_eq_mul, Matrix.vecMulVec_apply]
  ring

theorem cmSigma_exact {v : CmEnv K σ} {F : CmaFns K} (hF : CmFns v F) {co : CmCoef K} {q : CmaPars K} (hc : CmCoefIs co q) {n : Nat} (sigma : K) (ps : Fin n → K) :
    cmSigma v co (.fin sigma) (flVec ps) = .fin (cmaSigma F q sigma ps) := by
  have hr : 0 ≤ ∑ j, ps j * ps j := Finset.sum_nonneg fun j _ => mul_self_nonneg _
  unfold cmSigma cmaSigma
  rw [hc.cs, hc.damps, hc.chi, hF.op, norm_exact, hF.sqrt _ hr, ex_div _ hc.dampsPos.ne', ex_div _ hc.chiPos.ne', ex_sub, ex_mul, ex_min, hF.exp, ex_mul]

theorem cmSplit_exact {v : CmEnv K σ} {F : CmaFns K} (hF : CmFns v F) {n : Nat} {b : CmVars K n} {c : Cma K n} (hb : CmStands b c) :
    CmStands (cmSplit v b) (cmaSplit F c) := by
  have hC : (fun i j => v.op.div (v.op.add (b.C i j) (b.C j i)) (.fin 2)) = flMat ((1 / 2 : K) • (c.C + c.C.transpose)) := by
    funext i j
    rw [hb.C, hF.op]
    unfold flMat
    rw [ex_add, ex_div _ two_ne_zero]
    congr 1
    simp only [Matrix.smul_apply, Matrix.add_apply, Matrix.transpose_apply, smul_eq_mul]
    ring
  unfold cmSplit cmaSplit
  dsimp only
  rw [hC, hF.eig]
  cases hE : F.Ei ((1 / 2 : K) • (c.C + c.C.transpose)) with
  | none => exact ⟨hb.sigma, hb.mean, hb.B, hb.D, rfl, hb.S, hb.pc, hb.ps, hb.count, hb.count⟩
  | some p =>
    obtain ⟨B, l⟩ := p
    have hpos : ∀ j, 0 < F.R (max (1 / 10 ^ 20) (l j)) := fun j => hF.sqrtPos _ (lt_max_of_lt_left (by positivity))
    have hd : cmDev v (flVec l) = flVec (fun j => F.R (max (1 / 10 ^ 20) (l j))) := by
      funext j
      unfold cmDev flVec
      rw [ex_max, hF.sqrt _ (le_max_of_le_left (by positivity))]
    have hdiag : ∀ d : Fin n → K, (fun i j => if i = j then flVec d j else (Fl.fin 0 : Fl K)) = flMat (Matrix.diagonal d) := by
      intro d
      funext i j
      unfold flMat flVec
      rw [Matrix.diagonal_apply]
      split
      · rename_i h; rw [h]
      · rfl
    have hinv : (fun i j => if i = j then v.op.div (.fin 1) (cmDev v (flVec l) j) else .fin 0) =
        flMat (Matrix.diagonal (fun j => 1 / F.R (max (1 / 10 ^ 20) (l j)))) := by
      rw [← hdiag]
      funext i j
      split
      · rw [hd, hF.op]
        unfold flVec
        rw [ex_div _ (hpos j).ne']
      · rfl
    simp only [Option.map_some]
    refine ⟨hb.sigma, hb.mean, rfl, ?_, rfl, ?_, hb.pc, hb.ps, hb.count, hb.count⟩
    · dsimp only
      rw [hd]
      exact hdiag _
    · dsimp only
      rw [hinv, hF.op, laMul_exact, show (fun i j => flMat B j i) = flMat B.transpose from rfl, laMul_exact]

omit [IsStrictOrderedRing K] in
theorem split_count (F : CmaFns K) {n : Nat} (c : Cma K n) : (cmaSplit F c).count = c.count ∧ (cmaSplit F c).sigma = c.sigma ∧ (cmaSplit F c).last = c.count := by
  unfold cmaSplit
  dsimp only
  split <;> exact ⟨rfl, rfl, rfl⟩

theorem cmUpdate_exact {v : CmEnv K σ} {F : CmaFns K} (hF : CmFns v F) {A : Cmaes K} {n lam : Nat} (hn : 0 < n) (hlam : 2 ≤ lam) {q : CmaPars K}
    (hq : CmRates A F n lam q) {b : CmVars K n} {c : Cma K n} (hb : CmStands b c) (hs : 0 < c.sigma) (elite : List (Fin n → K)) :
    CmStands (cmUpdate v (cmCoef v A n lam) lam b ((cmWeights v (lam / 2)).zip (elite.map flVec))) (cmaNext F q lam c elite) ∧
      0 < (cmaNext F q lam c elite).sigma := by
  have hco := cmCoef_exact hF hn hlam hq
  have hint : ∀ k : Nat, v.g.ofInt k = (k : K) := fun k => by rw [hF.int]; simp
  have hn0 : (n : K) ≠ 0 := by positivity
  have hz : (cmWeights v (lam / 2)).zip (elite.map flVec) = (q.w.zip elite).map flPair := by
    rw [cmWeights_exact hF (by omega), ← hq.w, List.zip_map]
    rfl
  generalize cmCoef v A n lam = co at hco
  rw [hz]
  generalize hl : q.w.zip elite = l
  have hdm : (fun i => v.op.sub (cmMean v.op (l.map flPair) i) (b.mean i)) = flVec (cmaMean l - c.mean) := by
    funext i
    rw [hF.op, cmMean_exact, hb.mean]
    exact ex_sub _ _
  unfold cmUpdate cmaNext
  dsimp only
  rw [hdm, cmPs_exact hF hco ⟨hq.csIn.1.le, hq.csIn.2⟩ hb hs, hb.count, hl]
  generalize hps : cmaPs F q c ((1 / c.sigma) • (cmaMean l - c.mean)) = ps
  have hh : (if cmHsig v co lam (c.count + lam) (flVec ps) = true then Fl.fin 1 else Fl.fin 0) =
      Fl.fin (if cmaShort F q lam (c.count + lam) ps then (1 : K) else 0) := by
    rw [cmHsig_exact hF hco hq.csIn hn (by omega) (by omega)]
    by_cases h : cmaShort F q lam (c.count + lam) ps
    · simp [h]
    · simp [h]
  rw [hh]
  generalize (if cmaShort F q lam (c.count + lam) ps then (1 : K) else 0) = h
  rw [cmPc_exact hF hco hq.ccIn hb hs, cmC_exact hF hco hb hs, hb.sigma, cmSigma_exact hF hco, hF.op, cmMean_exact, hb.last]
  have hdue : cmDue v co n lam (c.count + lam) c.last =
      decide ((lam : K) / (q.c1 + q.cmu) / n / 10 < (c.count + lam - c.last : Nat)) := by
    unfold cmDue
    rw [hF.op, hco.c1, hco.cmu, hint, hint, hint, ex_add, ex_div _ hq.adapt.ne', ex_div _ hn0, ex_div _ (by norm_num)]
    rfl
  rw [hdue]
  have hsig : 0 < cmaSigma F q c.sigma ps := mul_pos hs (hF.expPos _)
  by_cases hd : (lam : K) / (q.c1 + q.cmu) / n / 10 < (c.count + lam - c.last : Nat)
  · rw [decide_eq_true hd, if_pos rfl, if_pos hd]
    refine ⟨cmSplit_exact hF ?_, ?_⟩
    · exact ⟨rfl, rfl, hb.B, hb.D, rfl, hb.S, rfl, rfl, rfl, rfl⟩
    · rw [(split_count F _).2.1]
      exact hsig
  · rw [decide_eq_false hd, if_neg (by simp), if_neg hd]
    exact ⟨⟨rfl, rfl, hb.B, hb.D, rfl, hb.S, rfl, rfl, rfl, rfl⟩, hsig⟩


/-- where the point that `z` stands for is evaluated -/
def cmaAt {n : Nat} (B : NesBox K n) (c : Cma K n) (z : Fin n → K) : Fin n → K :=
  fun j => if B.force then nesClip (B.lo j) (B.hi j) (nesPoint (cmaDist c) z j) else nesPoint (cmaDist c) z j

theorem cmPoint_exact {v : CmEnv K σ} (hop : v.op = Fl.exact K) {P : AProb K} {A : Cmaes K} {B : NesBox K P.info.nx} (hforce : B.force = A.force)
    (hlo : P.lb = List.ofFn (fun j => .fin (B.lo j))) (hhi : P.ub = List.ofFn (fun j => .fin (B.hi j))) {b : CmVars K P.info.nx} {c : Cma K P.info.nx}
    (hb : CmStands b c) (z : Fin P.info.nx → K) : cmPoint v P A b (flVec z) = .ok (List.ofFn (flVec (cmaAt B c z))) := by
  unfold cmPoint
  dsimp only
  rw [hop, cmMove_exact hb, hb.mean]
  by_cases hf : A.force = true
  · rw [if_pos hf, vecOf_ok (by rw [hlo]; simp), Outcome.bind_ok, vecOf_ok (by rw [hhi]; simp), Outcome.bind_ok]
    refine congrArg Outcome.ok (congrArg List.ofFn (funext fun j => ?_))
    unfold cmaAt flVec
    dsimp only
    rw [hforce, if_pos hf, ← xnClamp_exact]
    congr 1
    · simp only [hlo, List.getElem_ofFn]
    · simp only [hhi, List.getElem_ofFn]
  · rw [if_neg hf]
    refine congrArg Outcome.ok (congrArg List.ofFn (funext fun j => ?_))
    unfold cmaAt flVec
    dsimp only
    rw [hforce, if_neg hf]
    rfl

/-- the state of a run in the terms of Verif/Spec/Cmaes.lean -/
def cmaSt {n : Nat} (c : Cma K n) (a : CmState K n) : CmaState K n := ⟨c, a.xs, a.fs, a.evs⟩

theorem cmPts_exact {v : CmEnv K σ} (hop : v.op = Fl.exact K) {P : AProb K} {A : Cmaes K} {lam : Nat} {B : NesBox K P.info.nx} (hforce : B.force = A.force)
    (hlo : P.lb = List.ofFn (fun j => .fin (B.lo j))) (hhi : P.ub = List.ofFn (fun j => .fin (B.hi j))) {a b : CmState K P.info.nx}
    {c : Cma K P.info.nx} (hc : CmStands a.vars c) {ys : List (Fin P.info.nx → K)} (h : CmTurn v P A lam a (ys.map flVec) b) :
    b.xs = ys.map (fun z => List.ofFn (flVec (cmaAt B c z))) := by
  have h1 := h.pts
  have h2 := Outcome.mapM_ok (f := fun z => cmPoint v P A a.vars (flVec z)) _ ys (fun z _ => cmPoint_exact hop hforce hlo hhi hc z)
  rw [List.mapM_map] at h1
  exact Outcome.ok.inj (h1.symm.trans h2)

theorem cmNear_exact {v : CmEnv K σ} {F : CmaFns K} (hF : CmFns v F) {A : Cmaes K} {n lam : Nat} {b : CmVars K n} {c : Cma K n} (hb : CmStands b c)
    (ys : List (Fin n → K)) : CmNear v A lam b (ys.map flVec) ↔
      ∃ z, ys[lam - 1]? = some z ∧ Fl.lt (.fin (F.R (∑ j, (cmaDist c).A.mulVec z j * (cmaDist c).A.mulVec z j))) A.xtol = true := by
  have key : ∀ y, laNorm v.op v.sq (cmMove v.op b (flVec y)) = .fin (F.R (∑ j, (cmaDist c).A.mulVec y j * (cmaDist c).A.mulVec y j)) := by
    intro y
    rw [hF.op, cmMove_exact hb, norm_exact, hF.sqrt _ (Finset.sum_nonneg fun j _ => mul_self_nonneg _)]
  unfold CmNear
  constructor
  · rintro ⟨z, hz, hx⟩
    rw [List.getElem?_map, Option.map_eq_some_iff] at hz
    obtain ⟨y, hy, rfl⟩ := hz
    exact ⟨y, hy, by rw [← key]; exact hx⟩
  · rintro ⟨y, hy, hx⟩
    exact ⟨flVec y, by rw [List.getElem?_map, hy]; rfl, by rw [key]; exact hx⟩

theorem cmFlat_exact (ftol : Fl K) {fs : List (List (Fl K))} (h1 : ∀ f ∈ fs, f.length = 1) : CmFlat (Fl.exact K) ftol fs ↔
    ∃ f g : Fl K, [f] ∈ fs ∧ [g] ∈ fs ∧ (∀ h, [h] ∈ fs → f ≤ h ∧ h ≤ g) ∧ Fl.lt (Fl.abs (Fl.sub f g)) ftol = true := by
  unfold CmFlat Spread
  constructor
  · rintro ⟨d, ⟨f, g, hf, hg, hfg, rfl⟩, hd⟩
    exact ⟨f, g, hf, hg, fun h hh => hfg _ hh, hd⟩
  · rintro ⟨f, g, hf, hg, hfg, hd⟩
    refine ⟨_, ⟨f, g, hf, hg, fun h hh => ?_, rfl⟩, hd⟩
    obtain ⟨w, rfl⟩ := List.length_eq_one_iff.mp (h1 h hh)
    exact hfg w hh

theorem cmFull_exact {v : CmEnv K σ} {F : CmaFns K} (hF : CmFns v F) {P : AProb K} {A : Cmaes K} {B : NesBox K P.info.nx} (hforce : B.force = A.force)
    (hlo : P.lb = List.ofFn (fun j => .fin (B.lo j))) (hhi : P.ub = List.ofFn (fun j => .fin (B.hi j))) (hnx : 0 < P.info.nx) (h2 : 2 ≤ B.lam)
    {q : CmaPars K} (hq : CmRates A F P.info.nx B.lam q) {a b : CmState K P.info.nx} {c : Cma K P.info.nx} (hc : CmStands a.vars c) (hs : 0 < c.sigma)
    (h1 : ∀ f ∈ a.fs, f.length = 1) (h : CmFull v P A B.lam a b) : ∃ c', CmStands b.vars c' ∧ 0 < c'.sigma ∧ (∀ f ∈ b.fs, f.length = 1) ∧ CmaStep F q A.xtol A.ftol B (cmaSt c a) (cmaSt c' b) := by
  obtain ⟨zs, idx, ⟨hzl, hzf⟩, hnear, hflat, hT, hso, hu⟩ := h
  obtain ⟨ys, rfl⟩ := zs_exact hzf
  have hlt : ∀ i ∈ idx, i < B.lam := fun i hi => List.mem_range.mp (hso.perm.mem_iff.mp hi)
  have hyl : ys.length = B.lam := by simpa using hzl
  have hxs := cmPts_exact hF.op hforce hlo hhi hc hT
  have hil : idx.length = B.lam := by simpa using hso.perm.length_eq
  have hel : (idx.take (B.lam / 2)).map (fun i => cmVec P.info.nx (b.xs.getD i [])) =
      ((idx.take (B.lam / 2)).map (fun i => cmaAt B c (ys.getD i 0))).map flVec := by
    rw [List.map_map]
    refine List.map_congr_left fun i hi => ?_
    have := hlt i (List.mem_of_mem_take hi)
    rw [hxs, List.getD_eq_getElem _ _ (by simp; omega), List.getElem_map, Function.comp, List.getD_eq_getElem _ _ (by omega)]
    funext j
    unfold cmVec
    rw [List.getD_eq_getElem _ _ (by simp), List.getElem_ofFn]
  rw [hel] at hu
  obtain ⟨g1, g2⟩ := cmUpdate_exact hF hnx h2 hq hc hs ((idx.take (B.lam / 2)).map (fun i => cmaAt B c (ys.getD i 0)))
  rw [← hu] at g1
  refine ⟨_, g1, g2, hT.f1, ys, idx, (idx.take (B.lam / 2)).map (fun i => cmaAt B c (ys.getD i 0)), ?_, ?_, hso.perm, ?_, ?_, ?_, rfl⟩
  · intro hnan hstop
    rcases hstop with h | h
    · exact hnear ((cmNear_exact hF hc ys).mpr h)
    · refine hflat hnan ?_
      rw [hF.op]
      exact (cmFlat_exact _ h1).mpr h
  · refine ⟨hyl, hT.xl, hT.fl, ?_, fun f hf => List.length_eq_one_iff.mp (hT.f1 f hf), hT.ev⟩
    intro i z x h1 h3
    change b.xs[i]? = some x at h3
    rw [hxs, List.getElem?_map, h1] at h3
    exact (Option.some.inj h3).symm
  · refine hso.sorted.imp ?_
    intro i j hij f g hf hg
    simp only [cmaSt] at hf hg
    unfold cmLess at hij
    rw [hf, hg] at hij
    dsimp only at hij
    by_contra hlt
    rw [(Fl.lessThanF_iff _ _).mpr (not_le.mp hlt)] at hij
    cases hij
  · rw [List.length_map, List.length_take, hil]
    omega
  · intro i j y h1 h3
    rw [List.getElem?_map, Option.map_eq_some_iff] at h3
    obtain ⟨k, hk, rfl⟩ := h3
    rw [List.getElem?_take] at hk
    split at hk
    · rw [h1] at hk
      cases hk
      have := hlt j (List.mem_of_getElem? h1)
      show b.xs[j]? = _
      rw [hxs, List.getElem?_map, List.getElem?_eq_getElem (by omega), List.getD_eq_getElem _ _ (by omega)]
      rfl
    · cases hk

theorem cmSteps_exact {v : CmEnv K σ} {F : CmaFns K} (hF : CmFns v F) {P : AProb K} {A : Cmaes K} {B : NesBox K P.info.nx} (hforce : B.force = A.force)
    (hlo : P.lb = List.ofFn (fun j => .fin (B.lo j))) (hhi : P.ub = List.ofFn (fun j => .fin (B.hi j))) (hnx : 0 < P.info.nx) (h2 : 2 ≤ B.lam)
    {q : CmaPars K} (hq : CmRates A F P.info.nx B.lam q) {a : CmState K P.info.nx} {c : Cma K P.info.nx} (hc : CmStands a.vars c) (hs : 0 < c.sigma)
    (hf1 : ∀ f ∈ a.fs, f.length = 1) : ∀ (k : Nat) (b : CmState K P.info.nx), Steps (CmFull v P A B.lam) k a b →
      ∃ c', CmStands b.vars c' ∧ 0 < c'.sigma ∧ (∀ f ∈ b.fs, f.length = 1) ∧ Steps (CmaStep F q A.xtol A.ftol B) k (cmaSt c a) (cmaSt c' b) := by
  intro k
  induction k with
  | zero => intro b h; cases h; exact ⟨c, hc, hs, hf1, .refl _⟩
  | succ k ih =>
    intro d h
    cases h with
    | snoc h hFu =>
      rename_i b
      obtain ⟨c1, h1, h3, h3', h4⟩ := ih b h
      obtain ⟨c2, h5, h6, h6', h7⟩ := cmFull_exact hF hforce hlo hhi hnx h2 hq h1 h3 h3' hFu
      exact ⟨c2, h5, h6, h6', .snoc h4 h7⟩

/-- The state a run starts with when nothing is remembered: centred at the best individual, as wide as the bounds, no paths. -/
structure CmaStart {n : Nat} (X : NesBox K n) (sg : K) (xs fs : List (List (Fl K))) (c : Cma K n) : Prop where
  best : ∃ (i : Nat) (w : Fl K), xs[i]? = some (List.ofFn (fun j => Fl.fin (c.mean j))) ∧ fs[i]? = some [w] ∧ ∀ u, [u] ∈ fs → w ≤ u
  sigma : c.sigma = sg
  B : c.B = 1
  D : c.D = Matrix.diagonal (fun j => max (X.hi j - X.lo j) (1 / 1000000))
  C : c.C = Matrix.diagonal (fun j => max (X.hi j - X.lo j) (1 / 1000000) * max (X.hi j - X.lo j) (1 / 1000000))
  S : c.S = Matrix.diagonal (fun j => 1 / max (X.hi j - X.lo j) (1 / 1000000))
  pc : c.pc = 0
  ps : c.ps = 0
  count : c.count = 0
  last : c.last = 0

theorem cmReset_exact {v : CmEnv K σ} (hop : v.op = Fl.exact K) {P : AProb K} (hnobj : P.info.nobj = 1) (hnc : P.info.nc = 0) {A : Cmaes K}
    {B : NesBox K P.info.nx} (hlo : P.lb = List.ofFn (fun j => .fin (B.lo j))) (hhi : P.ub = List.ofFn (fun j => .fin (B.hi j))) {p : Pop.State K}
    (hi' : Inv P.info p) (hne : p.id ≠ []) (hsz : p.id.length ≤ 2 ^ 63) (hx : ∀ x ∈ p.x, AllFin x) (hf : ∀ f ∈ p.f, Fl.nan ∉ f) {sg : K}
    (hsg : A.sigma0 = .fin sg) {b : CmVars K P.info.nx} (hb : cmReset v P A p = .ok b) :
    ∃ c, CmStands b c ∧ CmaStart B sg p.x p.f c := by
  have hnf : P.info.nf = 1 := by simp only [Info.nf, Info.nc] at *; omega
  have hfne : p.f ≠ [] := fun h => hne (List.length_eq_zero_iff.mp (by rw [← hi'.wf.fs, h]; rfl))
  obtain ⟨⟨i, fb, e1, g1, b1⟩, -⟩ := C17_unconstrained_partial v.srt v.sq P.info hnobj hnc p.f hfne (by rw [hi'.wf.fs]; exact hsz) hi'.wf.dimF hf p.tol
  have hif := (List.getElem?_eq_some_iff.mp g1).1
  have hix : i < p.x.length := by rw [hi'.wf.xs, ← hi'.wf.fs]; exact hif
  have hxd := hi'.wf.dimX _ (List.getElem_mem hix)
  unfold cmReset at hb
  rw [e1, Outcome.bind_ok, Outcome.get_of_lt hix, Outcome.bind_ok, vecOf_ok hxd, Outcome.bind_ok, vecOf_ok (by rw [hlo]; simp), Outcome.bind_ok,
    vecOf_ok (by rw [hhi]; simp), Outcome.bind_ok] at hb
  cases hb
  have hfin : VecFin (fun j : Fin P.info.nx => (p.x[i]'hix)[j.1]'(by rw [hxd]; exact j.2)) := fun j => hx _ (List.getElem_mem hix) _ (List.getElem_mem _)
  obtain ⟨y, hy⟩ := vecFin_of hfin
  have hw : ∀ j, (0 : K) < max (B.hi j - B.lo j) (1 / 1000000) := fun j => lt_max_of_lt_right (by norm_num)
  have hD : (fun i j : Fin P.info.nx => if i = j then Fl.stdMax (v.op.sub (P.ub[j.1]'(by rw [hhi]; simp)) (P.lb[j.1]'(by rw [hlo]; simp))) (.fin (1 / 1000000))
      else .fin 0) = flMat (Matrix.diagonal (fun j => max (B.hi j - B.lo j) (1 / 1000000))) := by
    funext j k
    unfold flMat
    rw [Matrix.diagonal_apply]
    split
    · rename_i hjk
      subst hjk
      rw [hop]
      simp only [hlo, hhi, List.getElem_ofFn]
      rw [ex_sub, ex_max]
    · rfl
  refine ⟨⟨sg, y, 1, Matrix.diagonal (fun j => max (B.hi j - B.lo j) (1 / 1000000)),
    Matrix.diagonal (fun j => max (B.hi j - B.lo j) (1 / 1000000) * max (B.hi j - B.lo j) (1 / 1000000)),
    Matrix.diagonal (fun j => 1 / max (B.hi j - B.lo j) (1 / 1000000)), 0, 0, 0, 0⟩, ⟨hsg, hy, laId_exact _, hD, ?_, ?_, rfl, rfl, rfl, rfl⟩,
    ⟨?_, rfl, rfl, rfl, rfl, rfl, rfl, rfl, rfl, rfl⟩⟩
  · dsimp only
    rw [hD, hop, laMul_exact, Matrix.diagonal_mul_diagonal]
  · funext j k
    dsimp only
    unfold flMat
    rw [Matrix.diagonal_apply]
    split
    · rename_i hjk
      subst hjk
      have h1 := congrFun (congrFun hD j) j
      rw [h1]
      unfold flMat
      rw [Matrix.diagonal_apply_eq, hop, ex_div _ (hw j).ne']
    · rfl
  · have l1 := hi'.wf.dimF _ (List.mem_of_getElem? g1)
    rw [hnf] at l1
    obtain ⟨w, rfl⟩ := List.length_eq_one_iff.mp l1
    refine ⟨i, w, ?_, g1, fun u hu => ?_⟩
    · rw [List.getElem?_eq_getElem hix]
      refine congrArg some (List.ext_getElem (by simp [hxd]) fun j h1 h2 => ?_)
      rw [List.getElem_ofFn]
      exact congrFun hy ⟨j, by rw [← hxd]; exact h1⟩
    · have := b1 _ hu
      simp only [Lower, List.getElem?_cons_zero, Option.some.injEq, exists_eq_left', not_lt, exists_and_left] at this
      exact this

/-- C109. In exact arithmetic, a run is a sequence of generations as given by the formulas of the paper, see `CmaStep`: it starts at the best
individual (`CmaStart`) or where the last run ended; it does all generations, or stops before one in which one of the criteria is met,
see `CmaStop`, and then does nothing more. The step size remains positive. -/
theorem C109_evolve (v : CmEnv K σ) (rep : K → Prop) (hg : v.g.Lawful rep) (hsrt : ValidSort v.srt) (P : AProb K) (hP : FiniteBox P)
    (hnobj : P.info.nobj = 1) (hnc : P.info.nc = 0) (A : Cmaes K) (hgens : A.gens + 1 < 2 ^ 32) (hgens0 : A.gens ≠ 0)
    (bfe : Option (Batch K)) (hok : ∀ b, bfe = some b → BatchOk P b)
    (s : St K σ) (hi : Inv P.info s.pop) (h5 : 5 ≤ s.pop.id.length) (hsz : s.pop.id.length ≤ 2 ^ 63) (hx : ∀ x ∈ s.pop.x, AllFin x)
    (hf : ∀ f ∈ s.pop.f, Fl.nan ∉ f) (B : NesBox K P.info.nx) (hlo : P.lb = List.ofFn (fun j => .fin (B.lo j)))
    (hhi : P.ub = List.ofFn (fun j => .fin (B.hi j))) (hforce : B.force = A.force) (hlam : B.lam = s.pop.id.length) (F : CmaFns K) (hF : CmFns v F)
    (q : CmaPars K) (hq : CmRates A F P.info.nx s.pop.id.length q) (sg : K) (hsg : A.sigma0 = .fin sg) (hsg0 : 0 < sg) (m : CmMem K)
    (hm : A.memory = true → m.n = P.info.nx → m.lam = s.pop.id.length →
      ∃ b c, m = ⟨P.info.nx, s.pop.id.length, b⟩ ∧ CmStands b c ∧ 0 < c.sigma) (fuel : Nat) (hfuel : A.gens < fuel) :
    wp (cmEvolve v P A bfe fuel m) (fun m' s' => ∃ c0 c b', m' = ⟨P.info.nx, s.pop.id.length, b'⟩ ∧ CmStands b' c ∧ 0 < c.sigma ∧
      ((A.memory = true ∧ ∃ b0, m = ⟨P.info.nx, s.pop.id.length, b0⟩ ∧ CmStands b0 c0) ∨
        ((A.memory = false ∨ m.n ≠ P.info.nx ∨ m.lam ≠ s.pop.id.length) ∧ CmaStart B sg s.pop.x s.pop.f c0)) ∧
      (Steps (CmaStep F q A.xtol A.ftol B) A.gens ⟨c0, s.pop.x, s.pop.f, s.evs⟩ ⟨c, s'.pop.x, s'.pop.f, s'.evs⟩ ∨
        ∃ k < A.gens, Steps (CmaStep F q A.xtol A.ftol B) k ⟨c0, s.pop.x, s.pop.f, s.evs⟩ ⟨c, s'.pop.x, s'.pop.f, s'.evs⟩ ∧
          ∃ zs, zs.length = B.lam ∧ ((∀ f ∈ s'.pop.f, Fl.nan ∉ f) → CmaStop F A.xtol A.ftol B.lam ⟨c, s'.pop.x, s'.pop.f, s'.evs⟩ zs)))
      (CmFailed (CmBox A P) P bfe s) s := by
  have hnx0 : 0 < P.info.nx := by rw [hP.nx]; exact List.length_pos_iff.mpr hP.bounds.nonempty
  refine (cm_run hg hsrt hP hnobj hnc hgens hgens0 hok hi h5 hsz m hfuel).mono ?_ (fun _ _ h => h)
  rintro m' s' ⟨b0, b, hb0, rfl, hrun⟩
  have hstart : ∃ c0, CmStands b0 c0 ∧ 0 < c0.sigma ∧ ((A.memory = true ∧ ∃ b0, m = ⟨P.info.nx, s.pop.id.length, b0⟩ ∧ CmStands b0 c0) ∨
        ((A.memory = false ∨ m.n ≠ P.info.nx ∨ m.lam ≠ s.pop.id.length) ∧ CmaStart B sg s.pop.x s.pop.f c0)) := by
    have hres : ∀ b0, cmReset v P A s.pop = .ok b0 → (A.memory = false ∨ m.n ≠ P.info.nx ∨ m.lam ≠ s.pop.id.length) → ∃ c0, CmStands b0 c0 ∧ 0 < c0.sigma ∧
        ((A.memory = true ∧ ∃ b0, m = ⟨P.info.nx, s.pop.id.length, b0⟩ ∧ CmStands b0 c0) ∨
        ((A.memory = false ∨ m.n ≠ P.info.nx ∨ m.lam ≠ s.pop.id.length) ∧ CmaStart B sg s.pop.x s.pop.f c0)) := by
      intro b0 h hc
      obtain ⟨c, h1, h2⟩ := cmReset_exact hF.op hnobj hnc hlo hhi hi (fun h => by rw [h] at h5; simp at h5) hsz hx hf hsg h
      exact ⟨c, h1, by rw [h2.sigma]; exact hsg0, Or.inr ⟨hc, h2⟩⟩
    unfold cmInit at hb0
    split at hb0
    · rename_i h
      exact hres b0 hb0 (Or.inr (Or.inr h))
    rename_i hl
    split at hb0
    · rename_i h
      split at hb0
      · rename_i hmem
        exact hres b0 hb0 (Or.inl hmem)
      · rename_i hmem
        have hmem : A.memory = true := by simpa using hmem
        obtain ⟨bm, c, rfl, hc, hp⟩ := hm hmem h (not_not.mp hl)
        cases hb0
        exact ⟨c, hc, hp, Or.inl ⟨hmem, bm, rfl, hc⟩⟩
    · rename_i h
      exact hres b0 hb0 (Or.inr (Or.inl h))
  obtain ⟨c0, hc0, hp0, hst⟩ := hstart
  rw [← hlam] at hq
  have hfs1 : ∀ f ∈ s.pop.f, f.length = 1 := fun f hf => by
    rw [hi.wf.dimF f hf]
    simp only [Info.nf, Info.nc] at *
    omega
  rcases hrun with ⟨-, hs⟩ | ⟨k, hk, hk0, -, mid, hs, zs, ⟨hzl, hzf⟩, hstop, heq⟩
  · rw [← hlam] at hs
    obtain ⟨c, hc, hp, hf1, hS⟩ := cmSteps_exact hF hforce hlo hhi hnx0 (by omega) hq (a := cmSt P b0 s) hc0 hp0 hfs1 _ _ hs
    exact ⟨c0, c, b, rfl, hc, hp, hst, Or.inl hS⟩
  · rw [← hlam] at hs hzl hstop
    obtain ⟨c, hc, hp, hf1, hS⟩ := cmSteps_exact hF hforce hlo hhi hnx0 (by omega) hq (a := cmSt P b0 s) hc0 hp0 hfs1 _ _ hs
    subst heq
    obtain ⟨ys, rfl⟩ := zs_exact hzf
    refine ⟨c0, c, b, rfl, hc, hp, hst, Or.inr ⟨k - 1, by omega, hS, ys, by simpa using hzl, fun hnan => ?_⟩⟩
    rcases hstop with h | h
    · exact Or.inl ((cmNear_exact hF hc ys).mp h)
    · have := h hnan
      rw [hF.op] at this
      exact Or.inr ((cmFlat_exact _ hf1).mp this)

end

end exact

/-! ### C110: the covariance matrix, in exact arithmetic -/

section cov

open Matrix

/-- the variance in the direction `x`, times the square of the length of `x` -/
def quad {n : Nat} (M : Matrix (Fin n) (Fin n) K) (x : Fin n → K) : K := x ⬝ᵥ M *ᵥ x

theorem quad_add {n : Nat} (M N : Matrix (Fin n) (Fin n) K) (x : Fin n → K) : quad (M + N) x = quad M x + quad N x := by
  unfold quad
  rw [Matrix.add_mulVec, dotProduct_add]

theorem quad_smul {n : Nat} (a : K) (M : Matrix (Fin n) (Fin n) K) (x : Fin n → K) : quad (a • M) x = a * quad M x := by
  unfold quad
  rw [Matrix.smul_mulVec, dotProduct_smul, smul_eq_mul]

theorem quad_outer {n : Nat} (y x : Fin n → K) : quad (vecMulVec y y) x = (x ⬝ᵥ y) * (x ⬝ᵥ y) := by
  unfold quad
  rw [Matrix.vecMulVec_mulVec, dotProduct_smul, op_smul_eq_mul, dotProduct_comm y x]

theorem outer_symm {n : Nat} (y : Fin n → K) : (vecMulVec y y).IsSymm := by
  ext i j
  simp only [Matrix.transpose_apply, Matrix.vecMulVec_apply]
  ring

theorem cov_symm {n : Nat} (m : Fin n → K) (l : List (K × (Fin n → K))) : (cmaCov m l).IsSymm := by
  unfold cmaCov
  induction l with
  | nil => exact Matrix.transpose_zero
  | cons p l ih =>
    rw [List.map_cons, List.sum_cons]
    exact ((outer_symm _).smul _).add ih

theorem cmaC_symm (q : CmaPars K) {n : Nat} (c : Cma K n) (hc : c.C.IsSymm) (l : List (K × (Fin n → K))) (pc : Fin n → K) (h : K) :
    (cmaC q c l pc h).IsSymm :=
  ((hc.smul _).add (((cov_symm _ _).smul _).smul _)).add (((outer_symm _).add (hc.smul _)).smul _)

section
variable [IsStrictOrderedRing K]

theorem half_symm {n : Nat} {M : Matrix (Fin n) (Fin n) K} (h : M.IsSymm) : (1 / 2 : K) • (M + Mᵀ) = M := by
  rw [h.eq, ← two_smul K M, smul_smul]
  norm_num

theorem split_C (F : CmaFns K) {n : Nat} {c : Cma K n} (h : c.C.IsSymm) : (cmaSplit F c).C = c.C := by
  unfold cmaSplit
  dsimp only
  rw [half_symm h]
  split <;> rfl

theorem next_C (F : CmaFns K) (q : CmaPars K) {n : Nat} (lam : Nat) {c : Cma K n} (hc : c.C.IsSymm) (elite : List (Fin n → K)) :
    ∃ (pc : Fin n → K) (h : K), (h = 0 ∨ h = 1) ∧ (cmaNext F q lam c elite).C = cmaC q c (q.w.zip elite) pc h := by
  let y := (1 / c.sigma) • (cmaMean (q.w.zip elite) - c.mean)
  let h : K := if cmaShort F q lam (c.count + lam) (cmaPs F q c y) then 1 else 0
  refine ⟨cmaPc F q c y h, h, ?_, ?_⟩
  · show (if _ then _ else _) = _ ∨ (if _ then _ else _) = _
    split
    · exact Or.inr rfl
    · exact Or.inl rfl
  · unfold cmaNext
    dsimp only
    split
    · exact split_C F (cmaC_symm q c hc _ _ _)
    · rfl

/-- C110. The covariance matrix remains symmetric. -/
theorem C110_symmetric {n : Nat} (F : CmaFns K) (q : CmaPars K) (xtol ftol : Fl K) (B : NesBox K n) (k : Nat) (a b : CmaState K n)
    (h : Steps (CmaStep F q xtol ftol B) k a b) (ha : a.cma.C.IsSymm) : b.cma.C.IsSymm := by
  induction h with
  | refl => exact ha
  | snoc _ hs ih =>
    obtain ⟨zs, idx, elite, -, -, -, -, -, -, he⟩ := hs
    obtain ⟨pc, h, -, hC⟩ := next_C F q B.lam (ih ha) elite
    rw [he, hC]
    exact cmaC_symm q _ (ih ha) _ _ _

theorem cov_nonneg {n : Nat} (m : Fin n → K) : ∀ {l : List (K × (Fin n → K))}, (∀ p ∈ l, 0 ≤ p.1) → ∀ x, 0 ≤ quad (cmaCov m l) x := by
  intro l
  unfold cmaCov
  induction l with
  | nil => intro _ x; simp [quad]
  | cons p l ih =>
    intro h x
    rw [List.map_cons, List.sum_cons, quad_add, quad_smul, quad_outer]
    exact add_nonneg (mul_nonneg (h p (by simp)) (mul_self_nonneg _)) (ih (fun p hp => h p (by simp [hp])) x)

/-- Rates for which the covariance matrix remains one. -/
structure CmaSound (q : CmaPars K) : Prop where
  w : ∀ w ∈ q.w, 0 ≤ w
  cc : 0 ≤ q.cc ∧ q.cc ≤ 1
  c1 : 0 ≤ q.c1
  cmu : 0 ≤ q.cmu
  sum : q.c1 + q.cmu ≤ 1

/-- C110. If the two learning rates of the covariance matrix sum up to 1 at most, it remains positive semidefinite: no variance is negative.
Missing: other rates, for which this is false, see `C110_false`. -/
theorem C110_positive_partial {n : Nat} (F : CmaFns K) (q : CmaPars K) (hq : CmaSound q) (xtol ftol : Fl K) (B : NesBox K n) (k : Nat)
    (a b : CmaState K n) (h : Steps (CmaStep F q xtol ftol B) k a b) (ha : a.cma.C.IsSymm) (hp : ∀ x, 0 ≤ quad a.cma.C x) :
    ∀ x, 0 ≤ quad b.cma.C x := by
  induction h with
  | refl => exact hp
  | snoc hs0 hs ih =>
    have hsym := C110_symmetric F q xtol ftol B _ _ _ hs0 ha
    obtain ⟨zs, idx, elite, -, -, -, -, -, -, he⟩ := hs
    obtain ⟨pc, h, hh, hC⟩ := next_C F q B.lam hsym elite
    rw [he, hC]
    intro x
    have h1 := fun m => cov_nonneg (n := n) (l := q.w.zip elite) m (fun p hp => hq.w _ (List.of_mem_zip hp).1) x
    unfold cmaC
    rw [quad_add, quad_add, quad_smul, quad_smul, quad_smul, quad_smul, quad_add, quad_smul, quad_outer]
    have h2 : 0 ≤ (1 - h) * q.cc * (2 - q.cc) := by
      refine mul_nonneg (mul_nonneg ?_ hq.cc.1) (by linarith [hq.cc.2])
      rcases hh with rfl | rfl <;> norm_num
    refine add_nonneg (add_nonneg (mul_nonneg (by linarith [hq.sum]) (ih ha hp x)) (mul_nonneg hq.cmu (mul_nonneg ?_ (h1 _))))
      (mul_nonneg hq.c1 (add_nonneg (mul_self_nonneg _) (mul_nonneg h2 (ih ha hp x))))
    exact one_div_nonneg.mpr (mul_self_nonneg _)

theorem sum_sq_ge (c : K) : ∀ l : List K, 2 * c * l.sum ≤ (l.map (fun a => a * a)).sum + l.length * (c * c) := by
  intro l
  induction l with
  | nil => simp
  | cons a l ih =>
    rw [List.map_cons, List.sum_cons, List.sum_cons, List.length_cons]
    push_cast
    nlinarith [mul_self_nonneg (a - c)]

/-- C110. The default rates are such, for a population of at most `2 (n + 2) ^ 2 + 1` individuals. -/
theorem C110_default_rates (F : CmaFns K) (hL : StrictMonoOn F.L (Set.Ioi 0)) {n mu : Nat} (hn : 0 < n) (h0 : 0 < mu) (hmu : mu ≤ (n + 2) ^ 2) :
    CmaSound (cmaDefaults F n mu) := by
  obtain ⟨⟨c1, c2⟩, -, ⟨d1, -⟩, e1⟩ := C109_defaults F hL hn h0
  refine ⟨fun w hw => ((C109_weights hL h0).2.2.1 w hw).le, ⟨c1.le, c2⟩, d1.le, e1, ?_⟩
  have hm := C109_mueff hL h0
  have hmu' : cmaMueff (cmaWeights F.L mu) ≤ (n + 2) * (n + 2) := by
    obtain ⟨g1, g2, -, -⟩ := C109_weights hL h0
    have h1 : (0 : K) < mu := by exact_mod_cast h0
    have h2 := sum_sq_ge (1 / (mu : K)) (cmaWeights F.L mu)
    rw [g1, g2] at h2
    have h3 : (mu : K) * (1 / mu * (1 / mu)) = 1 / mu := by field_simp
    rw [h3] at h2
    have h4 : 1 / (mu : K) ≤ ((cmaWeights F.L mu).map (fun a => a * a)).sum := by linarith
    have h5 : (mu : K) ≤ (n + 2) * (n + 2) := by
      rw [← sq]
      exact_mod_cast hmu
    refine le_trans ?_ h5
    unfold cmaMueff
    rw [div_le_comm₀ (lt_of_lt_of_le (by positivity) h4) h1]
    exact h4
  have hn' : (1 : K) ≤ n := by exact_mod_cast hn
  unfold cmaDefaults
  dsimp only
  generalize cmaMueff (cmaWeights F.L mu) = m at hm hmu'
  have hm0 : 0 < m := by linarith
  obtain ⟨N1, hN1⟩ : ∃ N1 : K, N1 = (n + 13 / 10) * (n + 13 / 10) := ⟨_, rfl⟩
  obtain ⟨N2, hN2⟩ : ∃ N2 : K, N2 = (n + 2) * (n + 2) := ⟨_, rfl⟩
  have hN1' : 2 ≤ N1 := by rw [hN1]; nlinarith
  rw [← hN1, ← hN2]
  rw [← hN2] at hmu'
  have hN20 : 0 < N2 := by linarith
  have hi : 1 / m ≤ 1 := by rw [div_le_one hm0]; exact hm
  have hi0 : 0 < 1 / m := by positivity
  have him : 1 / m * m = 1 := by field_simp
  generalize 1 / m = i at hi hi0 him
  have hs : 2 / (N1 + m) + 2 * (m - 2 + i) / (N2 + m) = (2 * (N2 + m) + 2 * (m - 2 + i) * (N1 + m)) / ((N1 + m) * (N2 + m)) := by
    have : N1 + m ≠ 0 := by positivity
    have : N2 + m ≠ 0 := by positivity
    field_simp
  rw [hs, div_le_one (by positivity)]
  nlinarith [mul_nonneg (sub_nonneg.mpr hmu') (sub_nonneg.mpr hN1'), mul_nonneg (sub_nonneg.mpr hi) (sub_nonneg.mpr hN1'), mul_pos hm0 hi0]

/-- The method finds the eigenvalues and orthonormal eigenvectors of symmetric matrices, and `R` is the square root. -/
structure EigenOk (F : CmaFns K) : Prop where
  eig : ∀ {n : Nat} (M B : Matrix (Fin n) (Fin n) K) (l : Fin n → K), M.IsSymm → F.Ei M = some (B, l) → B * Bᵀ = 1 ∧ M = B * diagonal l * Bᵀ
  sqrt : ∀ a : K, 0 ≤ a → 0 ≤ F.R a ∧ F.R a * F.R a = a

/-- the axes are those of the covariance matrix, and `S` is the inverse of its square root -/
def CmaAxes {n : Nat} (c : Cma K n) : Prop := (c.B * c.D) * (c.B * c.D)ᵀ = c.C ∧ c.S * c.C * c.S = 1

/-- C110. At the start the individuals are drawn with the covariance matrix `C`. -/
theorem C110_start {n : Nat} (X : NesBox K n) (sg : K) (xs fs : List (List (Fl K))) (c : Cma K n) (h : CmaStart X sg xs fs c) :
    c.C.IsSymm ∧ (∀ x, 0 ≤ quad c.C x) ∧ CmaAxes c := by
  have hw : ∀ j, (0 : K) < max (X.hi j - X.lo j) (1 / 1000000) := fun j => lt_max_of_lt_right (by norm_num)
  refine ⟨?_, ?_, ?_, ?_⟩
  · rw [h.C]; exact Matrix.isSymm_diagonal _
  · intro x
    rw [h.C]
    unfold quad
    refine Finset.sum_nonneg fun j _ => ?_
    rw [Matrix.mulVec_diagonal]
    nlinarith [mul_self_nonneg (max (X.hi j - X.lo j) (1 / 1000000) * x j)]
  · rw [h.B, h.D, h.C, one_mul, Matrix.diagonal_transpose, Matrix.diagonal_mul_diagonal]
  · rw [h.S, h.C, Matrix.diagonal_mul_diagonal, Matrix.diagonal_mul_diagonal, ← Matrix.diagonal_one]
    congr 1
    funext j
    have := (hw j).ne'
    field_simp

/-- C110. A run that starts anew, with the default rates, and a population that is not too large for the dimension: at the end the covariance matrix is
symmetric and positive semidefinite. Missing: as for `C110_positive_partial`. -/
theorem C110_run_partial (v : CmEnv K σ) (rep : K → Prop) (hg : v.g.Lawful rep) (hsrt : ValidSort v.srt) (P : AProb K) (hP : FiniteBox P)
    (hnobj : P.info.nobj = 1) (hnc : P.info.nc = 0) (A : Cmaes K) (hgens : A.gens + 1 < 2 ^ 32) (hgens0 : A.gens ≠ 0)
    (bfe : Option (Batch K)) (hok : ∀ b, bfe = some b → BatchOk P b)
    (s : St K σ) (hi : Inv P.info s.pop) (h5 : 5 ≤ s.pop.id.length) (hsz : s.pop.id.length ≤ 2 ^ 63) (hx : ∀ x ∈ s.pop.x, AllFin x)
    (hf : ∀ f ∈ s.pop.f, Fl.nan ∉ f) (F : CmaFns K) (hF : CmFns v F)
    (hr : A.cc = .fin (-1) ∧ A.cs = .fin (-1) ∧ A.c1 = .fin (-1) ∧ A.cmu = .fin (-1)) (hbig : s.pop.id.length / 2 ≤ (P.info.nx + 2) ^ 2)
    (sg : K) (hsg : A.sigma0 = .fin sg) (hsg0 : 0 < sg) (m : CmMem K) (hm : A.memory = false ∨ m.n ≠ P.info.nx ∨ m.lam ≠ s.pop.id.length)
    (fuel : Nat) (hfuel : A.gens < fuel) :
    wp (cmEvolve v P A bfe fuel m) (fun m' _ => ∃ (b : CmVars K P.info.nx) (c : Matrix (Fin P.info.nx) (Fin P.info.nx) K),
        m' = ⟨P.info.nx, s.pop.id.length, b⟩ ∧ (∀ i j, b.C i j = .fin (c i j)) ∧ (∀ i j, c i j = c j i) ∧ ∀ x : Fin P.info.nx → K, 0 ≤ x ⬝ᵥ c.mulVec x)
      (CmFailed (CmBox A P) P bfe s) s := by
  have hnx0 : 0 < P.info.nx := by rw [hP.nx]; exact List.length_pos_iff.mpr hP.bounds.nonempty
  have hll : P.lb.length = P.info.nx := hP.nx.symm
  have hul : P.ub.length = P.info.nx := by rw [hP.nx]; exact hP.bounds.len.symm
  obtain ⟨lo, hlo⟩ := vecFin_of (x := fun j : Fin P.info.nx => P.lb[j.1]'(by rw [hll]; exact j.2)) (fun j => hP.finL _ (List.getElem_mem _))
  obtain ⟨hi', hhi⟩ := vecFin_of (x := fun j : Fin P.info.nx => P.ub[j.1]'(by rw [hul]; exact j.2)) (fun j => hP.finU _ (List.getElem_mem _))
  refine (C109_evolve v rep hg hsrt P hP hnobj hnc A hgens hgens0 bfe hok s hi h5 hsz hx hf ⟨lo, hi', A.force, s.pop.id.length⟩
    (List.ext_getElem (by simp [hll]) fun j h1 h2 => by rw [List.getElem_ofFn]; exact congrFun hlo ⟨j, by rw [← hll]; exact h1⟩)
    (List.ext_getElem (by simp [hul]) fun j h1 h2 => by rw [List.getElem_ofFn]; exact congrFun hhi ⟨j, by rw [← hul]; exact h1⟩)
    rfl rfl F hF _ (C109_rates F hF.mono hnx0 (by omega) A hr.1 hr.2.1 hr.2.2.1 hr.2.2.2) sg hsg hsg0 m
    (fun h1 h2 h3 => by rcases hm with h | h | h; · rw [h] at h1; cases h1
                        · exact absurd h2 h
                        · exact absurd h3 h) fuel hfuel).mono ?_ (fun _ _ h => h)
  rintro m' s' ⟨c0, c, b, rfl, hc, -, hst, hrun⟩
  have hst : CmaStart ⟨lo, hi', A.force, s.pop.id.length⟩ sg s.pop.x s.pop.f c0 := by
    rcases hst with ⟨h1, b0, rfl, -⟩ | ⟨-, h⟩
    · rcases hm with h | h | h
      · rw [h] at h1; cases h1
      · exact absurd rfl h
      · exact absurd rfl h
    · exact h
  obtain ⟨g1, g2, -⟩ := C110_start _ _ _ _ _ hst
  have hq : CmaSound (cmaDefaults F P.info.nx (s.pop.id.length / 2)) := C110_default_rates F hF.mono hnx0 (by omega) hbig
  obtain ⟨k, h⟩ : ∃ k, Steps (CmaStep F (cmaDefaults F P.info.nx (s.pop.id.length / 2)) A.xtol A.ftol ⟨lo, hi', A.force, s.pop.id.length⟩) k
      ⟨c0, s.pop.x, s.pop.f, s.evs⟩ ⟨c, s'.pop.x, s'.pop.f, s'.evs⟩ := by
    rcases hrun with h | ⟨k, -, h, -⟩
    exacts [⟨_, h⟩, ⟨k, h⟩]
  have hs : c.C.IsSymm := C110_symmetric F _ A.xtol A.ftol _ k _ _ h g1
  have hp : ∀ x, 0 ≤ quad c.C x := C110_positive_partial F _ hq A.xtol A.ftol _ k _ _ h g1 g2
  exact ⟨b, c.C, rfl, fun i j => by rw [hc.C]; rfl, fun i j => hs.apply j i, hp⟩

theorem split_axes {F : CmaFns K} (hF : EigenOk F) {n : Nat} {c : Cma K n} (hc : c.C.IsSymm) :
    ((cmaSplit F c).B = c.B ∧ (cmaSplit F c).D = c.D ∧ (cmaSplit F c).S = c.S) ∨
    ((∀ x, (x ⬝ᵥ x) / 10 ^ 20 ≤ quad c.C x) → CmaAxes (cmaSplit F c)) := by
  unfold cmaSplit
  dsimp only
  rw [half_symm hc]
  cases hE : F.Ei c.C with
  | none => exact Or.inl ⟨rfl, rfl, rfl⟩
  | some p =>
    obtain ⟨B, l⟩ := p
    right
    intro hq
    obtain ⟨h1, h2⟩ := hF.eig _ _ _ hc hE
    have h3 : Bᵀ * B = 1 := mul_eq_one_comm.mp h1
    have hl : ∀ j, 1 / 10 ^ 20 ≤ l j := by
      intro j
      have h4 := hq (B *ᵥ Pi.single j 1)
      have h5 : (B *ᵥ Pi.single j 1) ⬝ᵥ (B *ᵥ Pi.single j 1) = 1 := by
        rw [Matrix.dotProduct_mulVec, Matrix.vecMul_mulVec, h3, Matrix.vecMul_one]
        simp
      have h6 : quad c.C (B *ᵥ Pi.single j 1) = l j := by
        unfold quad
        rw [h2, Matrix.mulVec_mulVec, Matrix.mul_assoc, Matrix.mul_assoc, h3, Matrix.mul_one, ← Matrix.mulVec_mulVec, Matrix.dotProduct_mulVec,
          Matrix.vecMul_mulVec, h3, Matrix.vecMul_one]
        simp
      rw [h5, h6] at h4
      exact h4
    have hd : ∀ j, max (1 / 10 ^ 20) (l j) = l j := fun j => max_eq_right (hl j)
    have hl0 : ∀ j, 0 < l j := fun j => lt_of_lt_of_le (by positivity) (hl j)
    have hr : ∀ j, F.R (l j) * F.R (l j) = l j := fun j => (hF.sqrt _ (hl0 j).le).2
    have hr0 : ∀ j, F.R (l j) ≠ 0 := by
      intro j h
      have := hr j
      rw [h] at this
      have := hl0 j
      linarith
    simp only [hd]
    refine ⟨?_, ?_⟩
    · dsimp only
      rw [Matrix.transpose_mul, Matrix.diagonal_transpose, Matrix.mul_assoc, ← Matrix.mul_assoc (diagonal _) (diagonal _), Matrix.diagonal_mul_diagonal,
        ← Matrix.mul_assoc]
      simp only [hr]
      exact h2.symm
    · dsimp only
      rw [h2]
      have : B * diagonal (fun j => 1 / F.R (l j)) * Bᵀ * (B * diagonal l * Bᵀ) * (B * diagonal (fun j => 1 / F.R (l j)) * Bᵀ) =
          B * (diagonal (fun j => 1 / F.R (l j)) * (Bᵀ * B) * diagonal l * (Bᵀ * B) * diagonal (fun j => 1 / F.R (l j))) * Bᵀ := by
        simp only [Matrix.mul_assoc]
      rw [this, h3, Matrix.mul_one, Matrix.mul_one, Matrix.diagonal_mul_diagonal, Matrix.diagonal_mul_diagonal,
        show (fun j => 1 / F.R (l j) * l j * (1 / F.R (l j))) = fun _ => (1 : K) by
          funext j
          have h7 := hr j
          have := hr0 j
          field_simp
          rw [sq]
          exact h7.symm, Matrix.diagonal_one, Matrix.mul_one, h1]

/-- C110. In a generation, either the axes do not change or, if `C` is positive definite (no variance less than `10 ^ -20`), afterwards
they are those of `C`: the next individuals are drawn with covariance `sigma ^ 2 * C`. -/
theorem C110_axes {n : Nat} (F : CmaFns K) (hF : EigenOk F) (q : CmaPars K) (xtol ftol : Fl K) (B : NesBox K n) (a b : CmaState K n)
    (h : CmaStep F q xtol ftol B a b) (ha : a.cma.C.IsSymm) :
    (b.cma.B = a.cma.B ∧ b.cma.D = a.cma.D ∧ b.cma.S = a.cma.S) ∨
    ((∀ x, (x ⬝ᵥ x) / 10 ^ 20 ≤ quad b.cma.C x) → CmaAxes b.cma) := by
  obtain ⟨zs, idx, elite, -, -, -, -, -, -, he⟩ := h
  have key : ∀ c : Cma K n, c.C.IsSymm → c.B = a.cma.B → c.D = a.cma.D → c.S = a.cma.S →
      ((cmaSplit F c).B = a.cma.B ∧ (cmaSplit F c).D = a.cma.D ∧ (cmaSplit F c).S = a.cma.S) ∨
      ((∀ x, (x ⬝ᵥ x) / 10 ^ 20 ≤ quad (cmaSplit F c).C x) → CmaAxes (cmaSplit F c)) := by
    intro c hc h1 h2 h3
    rw [split_C F hc, ← h1, ← h2, ← h3]
    exact split_axes hF hc
  rw [he]
  unfold cmaNext
  dsimp only
  split
  · exact key _ (cmaC_symm q a.cma ha (q.w.zip elite) _ _) rfl rfl rfl
  · exact Or.inl ⟨rfl, rfl, rfl⟩

end

end cov

/-! ### C110: large populations -/

section false

/-- the functions of the real numbers; the eigenvalue solver is any -/
noncomputable def realFns (Ei : {n : Nat} → Matrix (Fin n) (Fin n) ℝ → Option (Matrix (Fin n) (Fin n) ℝ × (Fin n → ℝ))) : CmaFns ℝ :=
  ⟨Real.log, Real.sqrt, Real.exp, fun a b => a ^ b, Ei⟩

/-- half of the population -/
def manyMu : Nat := 128

theorem many_raw_sum : 104 * Real.log 2 ≤ ((List.range 128).map (fun k : Nat => Real.log ((128 : Nat) + 1 / 2) - Real.log (k + 1))).sum := by
  have h1 : ((List.range 128).map (fun k : Nat => ((7 - Nat.clog 2 (k + 1) : Nat) : ℝ) * Real.log 2)).sum ≤
      ((List.range 128).map (fun k : Nat => Real.log ((128 : Nat) + 1 / 2) - Real.log (k + 1))).sum := by
    refine List.sum_le_sum fun k hk => ?_
    have hk' := List.mem_range.mp hk
    have key : ∀ k < 128, 2 ^ (7 - Nat.clog 2 (k + 1)) * (k + 1) ≤ 128 := by decide +kernel
    have h2 : (2 : ℝ) ^ (7 - Nat.clog 2 (k + 1)) * (k + 1) ≤ 128 := by exact_mod_cast key k hk'
    have h3 : Real.log ((2 : ℝ) ^ (7 - Nat.clog 2 (k + 1)) * (k + 1)) ≤ Real.log ((128 : Nat) + 1 / 2) :=
      Real.log_le_log (by positivity) (by push_cast; linarith)
    rw [Real.log_mul (by positivity) (by positivity), Real.log_pow] at h3
    linarith
  refine le_trans ?_ h1
  have h2 : ∀ l : List Nat, (l.map (fun k : Nat => ((7 - Nat.clog 2 (k + 1) : Nat) : ℝ) * Real.log 2)).sum =
      ((l.map (fun k : Nat => 7 - Nat.clog 2 (k + 1))).sum : Nat) * Real.log 2 := by
    intro l
    induction l with
    | nil => simp
    | cons a l ih => rw [List.map_cons, List.sum_cons, ih, List.map_cons, List.sum_cons]; push_cast; ring
  rw [h2]
  have h3 : ((List.range 128).map (fun k : Nat => 7 - Nat.clog 2 (k + 1))).sum = 127 := by decide +kernel
  rw [h3]
  have := Real.log_nonneg (show (1 : ℝ) ≤ 2 by norm_num)
  push_cast
  linarith

theorem sum_sq_le_max {m : ℝ} : ∀ {l : List ℝ}, (∀ w ∈ l, 0 ≤ w ∧ w ≤ m) → (l.map (fun a => a * a)).sum ≤ m * l.sum := by
  intro l
  induction l with
  | nil => simp
  | cons a l ih =>
    intro h
    obtain ⟨h1, h2⟩ := h a (by simp)
    have := ih fun w hw => h w (by simp [hw])
    rw [List.map_cons, List.sum_cons, List.sum_cons]
    nlinarith

theorem many_mueff : 13 ≤ cmaMueff (cmaWeights Real.log manyMu) := by
  have hs := many_raw_sum
  have hl2 := Real.log_pos (show (1 : ℝ) < 2 by norm_num)
  obtain ⟨g1, g2, g3, -⟩ := C109_weights Real.strictMonoOn_log (show 0 < manyMu by decide)
  have hw : ∀ w ∈ cmaWeights Real.log manyMu, 0 ≤ w ∧ w ≤ 1 / 13 := by
    intro w hw
    refine ⟨(g3 w hw).le, ?_⟩
    unfold cmaWeights at hw
    dsimp only at hw
    obtain ⟨a, ha, rfl⟩ := List.mem_map.mp hw
    obtain ⟨k, hk, rfl⟩ := List.mem_map.mp ha
    have h8 : Real.log ((128 : Nat) + 1 / 2) ≤ 8 * Real.log 2 := by
      rw [show (8 : ℝ) = ((8 : Nat) : ℝ) by norm_num, ← Real.log_pow]
      exact Real.log_le_log (by positivity) (by norm_num)
    have hk1 : 0 ≤ Real.log ((k : ℝ) + 1) := Real.log_nonneg (by linarith [(Nat.cast_nonneg k : (0 : ℝ) ≤ k)])
    unfold manyMu at *
    rw [div_le_div_iff₀ (by linarith) (by norm_num)]
    linarith
  have h1 := sum_sq_le_max hw
  rw [g2] at h1
  have hpos : 0 < ((cmaWeights Real.log manyMu).map (fun a => a * a)).sum := by
    refine List.sum_pos _ ?_ ?_
    · intro x hx
      obtain ⟨w, hw, rfl⟩ := List.mem_map.mp hx
      exact mul_pos (g3 w hw) (g3 w hw)
    · intro h
      have := congrArg List.length h
      rw [List.length_map, g1] at this
      exact absurd this (by decide)
  unfold cmaMueff
  rw [le_div_iff₀ hpos]
  linarith

/-- C110 (false). For one variable and 256 individuals, the default rates of the covariance matrix sum up to more than 1: the old matrix enters with a
negative weight. -/
theorem C110_rates_false (F : CmaFns ℝ) (hL : F.L = Real.log) : 1 < (cmaDefaults F 1 (256 / 2)).c1 + (cmaDefaults F 1 (256 / 2)).cmu := by
  have hm := many_mueff
  rw [show 256 / 2 = manyMu from rfl]
  unfold cmaDefaults
  rw [hL]
  dsimp only
  generalize cmaMueff (cmaWeights Real.log manyMu) = m at hm
  push_cast
  have h1 : 0 < 2 / (((1 : ℝ) + 13 / 10) * (1 + 13 / 10) + m) := by positivity
  have h2 : 1 ≤ 2 * (m - 2 + 1 / m) / (((1 : ℝ) + 2) * (1 + 2) + m) := by
    rw [le_div_iff₀ (by positivity)]
    have : 0 < 1 / m := by positivity
    linarith
  linarith

/-- one variable in [0, 1], `force_bounds`, 256 individuals -/
noncomputable def manyBox : NesBox ℝ 1 := ⟨fun _ => 0, fun _ => 1, true, 256⟩

/-- the start, at 0 -/
noncomputable def manyStart : Cma ℝ 1 := ⟨1 / 2, 0, 1, 1, 1, 1, 0, 0, 0, 0⟩

/-- all individuals are at 0 except the last one -/
noncomputable def manyXs : List (List (Fl ℝ)) := List.replicate 255 [.fin 0] ++ [[.fin 1]]

theorem manyStart_ok : CmaStart manyBox (1 / 2) manyXs manyXs manyStart := by
  have h1 : (fun j : Fin 1 => max (manyBox.hi j - manyBox.lo j) (1 / 1000000)) = fun _ => 1 := by
    funext j
    simp only [manyBox]
    norm_num
  have h1' : ∀ j : Fin 1, max (manyBox.hi j - manyBox.lo j) (1 / 1000000) = 1 := fun j => congrFun h1 j
  refine ⟨⟨0, .fin 0, ?_, ?_, ?_⟩, rfl, rfl, ?_, ?_, ?_, rfl, rfl, rfl, rfl⟩
  · simp [manyXs, manyStart, -List.reduceReplicate, List.getElem?_append]
  · simp [manyXs, -List.reduceReplicate, List.getElem?_append]
  · intro u hu
    simp only [manyXs, List.mem_append, List.mem_replicate, List.mem_singleton, List.cons.injEq, and_true] at hu
    rcases hu with ⟨-, rfl⟩ | rfl <;> simp
  · simp only [h1', Matrix.diagonal_one]; rfl
  · simp only [h1', mul_one, Matrix.diagonal_one]; rfl
  · simp only [h1', div_one, Matrix.diagonal_one]; rfl

/-- C110 (false). One generation with the default rates from the start, in which all individuals are drawn below the lower bound, where the best
individual is: afterwards the variance `C` is negative. -/
theorem C110_false (Ei : {n : Nat} → Matrix (Fin n) (Fin n) ℝ → Option (Matrix (Fin n) (Fin n) ℝ × (Fin n → ℝ))) :
    ∃ b : CmaState ℝ 1, CmaStart manyBox (1 / 2) manyXs manyXs manyStart ∧
      CmaStep (realFns Ei) (cmaDefaults (realFns Ei) 1 (256 / 2)) (.fin 0) (.fin 0) manyBox ⟨manyStart, manyXs, manyXs, []⟩ b ∧ b.cma.C 0 0 < 0 := by
  have hr := C110_rates_false (realFns Ei) rfl
  obtain ⟨g1, g2, -, -⟩ := C109_weights Real.strictMonoOn_log (show 0 < 256 / 2 by decide)
  let q := cmaDefaults (realFns Ei) 1 (256 / 2)
  let elite : List (Fin 1 → ℝ) := List.replicate 128 0
  have hmean : ∀ w : List ℝ, cmaMean (w.zip (List.replicate 128 (0 : Fin 1 → ℝ))) = 0 := by
    intro w
    unfold cmaMean
    refine List.sum_eq_zero fun x hx => ?_
    obtain ⟨p, hp, rfl⟩ := List.mem_map.mp hx
    rw [(List.mem_replicate.mp (List.of_mem_zip hp).2).2, smul_zero]
  have hcov : ∀ w : List ℝ, cmaCov 0 (w.zip (List.replicate 128 (0 : Fin 1 → ℝ))) = 0 := by
    intro w
    unfold cmaCov
    refine List.sum_eq_zero fun x hx => ?_
    obtain ⟨p, hp, rfl⟩ := List.mem_map.mp hx
    rw [(List.mem_replicate.mp (List.of_mem_zip hp).2).2, sub_zero, Matrix.zero_vecMulVec, smul_zero]
  refine ⟨⟨cmaNext (realFns Ei) q 256 manyStart elite, List.replicate 256 [.fin 0], List.replicate 256 [.fin 0],
    (List.replicate 256 ([.fin 0], Except.ok [.fin 0]))⟩, manyStart_ok, ⟨List.replicate 256 (fun _ => -1), List.range 256, elite, ?_, ?_, List.Perm.refl _, ?_, ?_, ?_, rfl⟩, ?_⟩
  · rintro - (⟨z, -, hz⟩ | ⟨f, g, hf, hg, -, h⟩)
    · simp only [Fl.lt, decide_eq_true_eq] at hz
      exact absurd hz (not_lt.mpr (Real.sqrt_nonneg _))
    · simp only [manyXs, List.mem_append, List.mem_replicate, List.mem_singleton, List.cons.injEq, and_true] at hf hg
      have key : ∀ x : ℝ, Fl.lt (Fl.abs (.fin x)) (.fin (0 : ℝ)) = true → False := by
        intro x hx
        rw [fl_abs_fin] at hx
        simp only [Fl.lt, decide_eq_true_eq] at hx
        exact absurd hx (not_lt.mpr (abs_nonneg _))
      rcases hf with ⟨-, rfl⟩ | rfl <;> rcases hg with ⟨-, rfl⟩ | rfl <;> rw [fl_sub_fin] at h <;> exact key _ h
  · refine ⟨List.length_replicate, List.length_replicate, List.length_replicate, ?_, ?_, ?_⟩
    · intro i z x hz hx
      have hz' := (List.mem_replicate.mp (List.mem_of_getElem? hz)).2
      have hx' := (List.mem_replicate.mp (List.mem_of_getElem? hx)).2
      subst hz' hx'
      simp [manyBox, CmaState.nes, cmaDist, manyStart, nesPoint, nesClip, Matrix.mulVec, dotProduct]
    · intro f hf
      exact ⟨_, (List.mem_replicate.mp hf).2⟩
    · show List.replicate 256 _ = [] ++ _
      rw [CmaState.nes, List.zip_replicate, List.map_replicate, List.nil_append]
      rfl
  · refine List.pairwise_iff_getElem.mpr ?_
    intro i j _ _ _ f g hf hg
    have hf' := (List.mem_replicate.mp (List.mem_of_getElem? hf)).2
    have hg' := (List.mem_replicate.mp (List.mem_of_getElem? hg)).2
    cases hf'
    cases hg'
    exact le_refl _
  · exact List.length_replicate
  · intro i j y h1 h2
    have h2' := (List.mem_replicate.mp (List.mem_of_getElem? h2)).2
    have h3 := List.mem_range.mp (List.mem_of_getElem? h1)
    subst h2'
    show (List.replicate 256 _)[j]? = _
    rw [List.getElem?_replicate, if_pos h3]
    simp
  · have hsym : manyStart.C.IsSymm := Matrix.transpose_one
    have hps : cmaPs (realFns Ei) q manyStart ((1 / manyStart.sigma) • (cmaMean (q.w.zip elite) - manyStart.mean)) = 0 := by
      simp only [elite]
      rw [hmean]
      simp [cmaPs, manyStart]
    have hshort : cmaShort (realFns Ei) q 256 (manyStart.count + 256) (0 : Fin 1 → ℝ) := by
      unfold cmaShort
      simp
      norm_num
    have hpc : cmaPc (realFns Ei) q manyStart ((1 / manyStart.sigma) • (cmaMean (q.w.zip elite) - manyStart.mean)) 1 = 0 := by
      simp only [elite]
      rw [hmean]
      simp [cmaPc, manyStart]
    have hC : cmaC q manyStart (q.w.zip elite) 0 1 = (1 - q.c1 - q.cmu) • (1 : Matrix (Fin 1) (Fin 1) ℝ) := by
      unfold cmaC
      simp only [elite]
      rw [show manyStart.mean = 0 from rfl, hcov]
      simp [manyStart, Matrix.zero_vecMulVec]
    have hCs : (cmaC q manyStart (q.w.zip elite) 0 1).IsSymm := cmaC_symm q manyStart hsym _ _ _
    have hfin : (cmaNext (realFns Ei) q 256 manyStart elite).C = cmaC q manyStart (q.w.zip elite) 0 1 := by
      unfold cmaNext
      dsimp only
      rw [hps, if_pos hshort, hpc]
      split
      · exact split_C _ hCs
      · rfl
    show (cmaNext (realFns Ei) q 256 manyStart elite).C 0 0 < 0
    rw [hfin, hC]
    simp only [Matrix.smul_apply, Matrix.one_apply_eq, smul_eq_mul, mul_one]
    have : 1 < q.c1 + q.cmu := hr
    linarith

end false

/-! ### C111: memory -/

theorem cmInit_reset {v : CmEnv K σ} {P : AProb K} {A : Cmaes K} {p : Pop.State K} {m : CmMem K}
    (h : A.memory = false ∨ m.n ≠ P.info.nx ∨ m.lam ≠ p.id.length) : cmInit v P A p m = cmReset v P A p := by
  unfold cmInit
  split
  · rfl
  rename_i hl
  split
  · rename_i hn
    rw [if_pos]
    rcases h with h | h | h
    · exact h
    · exact absurd hn h
    · exact absurd h hl
  · rfl

/-- C111. Without `memory` a run does not depend on the runs before. With it, it does not if the number of variables or of individuals changed. -/
theorem C111_forget (v : CmEnv K σ) (P : AProb K) (A : Cmaes K) (bfe : Option (Batch K)) (fuel : Nat) (m m' : CmMem K) (s : St K σ) (hgens : A.gens ≠ 0)
    (h : A.memory = false ∨ (m.n ≠ P.info.nx ∨ m.lam ≠ s.pop.id.length) ∧ (m'.n ≠ P.info.nx ∨ m'.lam ≠ s.pop.id.length)) :
    cmEvolve v P A bfe fuel m s = cmEvolve v P A bfe fuel m' s := by
  have h1 : cmInit v P A s.pop m = cmReset v P A s.pop := cmInit_reset (h.imp id And.left)
  have h2 : cmInit v P A s.pop m' = cmReset v P A s.pop := cmInit_reset (h.imp id And.right)
  unfold cmEvolve
  show Run.bind _ _ _ = Run.bind _ _ _
  unfold Run.bind
  dsimp only [Run.get]
  simp only [h1, h2, if_neg hgens]

/-- C111. The first run of an algorithm with `memory` is the same as without. -/
theorem C111_first (v : CmEnv K σ) (P : AProb K) (A : Cmaes K) (bfe : Option (Batch K)) (fuel : Nat) (m : CmMem K) (s : St K σ) (hgens : A.gens ≠ 0) :
    cmEvolve v P A bfe fuel (cmFresh A) s = cmEvolve v P { A with memory := false } bfe fuel m s := by
  by_cases h5 : s.pop.id.length < 5
  · have key : ∀ A' m', ∃ e, cmEvolve v P A' bfe fuel m' s = (.throws e, s) := by
      intro A' m'
      exact ⟨_, C108_throws v P A' bfe fuel m' s (Or.inr (Or.inr (Or.inl h5)))⟩
    rw [C108_throws v P A bfe fuel (cmFresh A) s (Or.inr (Or.inr (Or.inl h5))), C108_throws v P _ bfe fuel m s (Or.inr (Or.inr (Or.inl h5)))]
  have h1 : cmInit v P A s.pop (cmFresh A) = cmReset v P A s.pop := cmInit_reset (Or.inr (Or.inr (by simp only [cmFresh]; omega)))
  have h2 : cmInit v P { A with memory := false } s.pop m = cmReset v P A s.pop := cmInit_reset (Or.inl rfl)
  have h3 : ∀ lam, cmGen v P { A with memory := false } bfe lam = cmGen v P A bfe lam := by
    intro lam
    funext g b
    rfl
  unfold cmEvolve
  show Run.bind _ _ _ = Run.bind _ _ _
  unfold Run.bind
  dsimp only [Run.get]
  simp only [h1, h2, h3, if_neg hgens]

/-- C111. With `memory` and the same size a run goes on with the members as they are: the population does not matter for the new points,
which are drawn from the distribution remembered. -/
theorem C111_resume (v : CmEnv K σ) (P : AProb K) (A : Cmaes K) (b : CmVars K P.info.nx) (p : Pop.State K) (hm : A.memory = true) :
    cmInit v P A p ⟨P.info.nx, p.id.length, b⟩ = .ok b := by
  unfold cmInit
  rw [if_neg (by simp), dif_pos rfl, if_neg (by simp [hm])]

/-! ### C112: batch evaluation -/

/-- what `m` does does not depend on the evaluations before, and it does none -/
def EvsFree {α : Type} (m : Run (St K σ) α) : Prop :=
  ∀ (s : St K σ) (e : List (ECall K)), m { s with evs := e } = ((m s).1, { (m s).2 with evs := e }) ∧ (m s).2.evs = s.evs

theorem evsFree_bind {α β : Type} {m : Run (St K σ) α} {f : α → Run (St K σ) β} (hm : EvsFree m) (hf : ∀ a, EvsFree (f a)) : EvsFree (m >>= f) := by
  intro s e
  obtain ⟨h1, h2⟩ := hm s e
  have h3 : ∀ s, (m >>= f) s = Run.bind m f s := fun _ => rfl
  rw [h3, h3]
  unfold Run.bind
  rw [h1]
  rcases hr : m s with ⟨o, s1⟩
  rw [hr] at h2
  cases o with
  | ok a =>
    obtain ⟨h4, h5⟩ := hf a s1 e
    exact ⟨h4, h5.trans h2⟩
  | _ => exact ⟨rfl, h2⟩

theorem evsFree_foldlM {β α : Type} {f : β → α → Run (St K σ) β} (h : ∀ b a, EvsFree (f b a)) (l : List α) : ∀ b, EvsFree (l.foldlM f b) := by
  induction l with
  | nil => intro b s e; exact ⟨rfl, rfl⟩
  | cons a l ih =>
    intro b
    rw [List.foldlM_cons]
    exact evsFree_bind (h b a) fun b' => ih b'

theorem cmStore_evs (v : CmEnv K σ) (P : AProb K) (xs fs : List (List (Fl K))) (u : Unit) (i : Nat) : EvsFree (cmStore v P xs fs u i) := by
  unfold cmStore
  exact evsFree_bind (fun _ _ => ⟨rfl, rfl⟩) fun _ => evsFree_bind (fun _ _ => ⟨rfl, rfl⟩) fun _ => fun _ _ => ⟨rfl, rfl⟩

theorem cmEval_batch (v : CmEnv K σ) {P : AProb K} {b : Batch K} {F : List (Fl K) → List (Fl K)} (hF : BatchOf P b F) (hnx : 0 < P.info.nx)
    (hnf : 0 < P.info.nf) (hnc : P.info.nc = 0) {xs : List (List (Fl K))} {lam : Nat} (hl : xs.length = lam) (hx : ∀ x ∈ xs, x.length = P.info.nx)
    (s s' : St K σ) : cmEval v P none lam xs s = (.ok (), s') ↔ cmEval v P (some b) lam xs s = (.ok (), s') := by
  have hFx : ∀ x ∈ xs, ∀ s : St K σ, eval P x s = (.ok (F x), { s with evs := s.evs ++ [(x, Except.ok (F x))] }) := by
    intro x h s
    unfold eval
    rw [hF.fit _ _ (hx x h), if_neg (by simp [hx x h])]
    unfold Pop.probFitness
    simp [hx x h, hF.dim x (hx x h)]
  have key : ∀ k, k ≤ lam → ∀ s', (List.range k).foldlM (cmSet v P xs) () s = (Outcome.ok (), s') ↔
      ∃ s1, (List.range k).foldlM (cmStore v P xs (xs.map F)) () s = (Outcome.ok (), s1) ∧
        s' = { s1 with evs := s.evs ++ (xs.take k).map (fun x => (x, Except.ok (F x))) } := by
    intro k
    induction k with
    | zero =>
      intro _ s'
      constructor
      · intro h; cases h; exact ⟨s, rfl, by simp⟩
      · rintro ⟨s1, h, rfl⟩; cases h; simp; rfl
    | succ k ih =>
      intro hk s'
      have hkl : k < xs.length := by omega
      rw [List.range_succ, run_foldlM_snoc, run_foldlM_snoc, bind_ok_iff]
      have hmem := List.getElem_mem hkl
      have hset : ∀ s2 : St K σ, cmSet v P xs () k s2 = onPop (Pop.setXF v.sq P.info k xs[k] (F xs[k])) { s2 with evs := s2.evs ++ [(xs[k], Except.ok (F xs[k]))] } := by
        intro s2
        unfold cmSet
        show Run.bind _ _ _ = _
        unfold Run.bind
        rw [Outcome.get_of_lt hkl]
        show setX v.toEnv P k xs[k] s2 = _
        unfold setX
        show Run.bind _ _ _ = _
        unfold Run.bind
        rw [hFx _ hmem]
      have hstore : ∀ s2 : St K σ, cmStore v P xs (xs.map F) () k s2 = onPop (Pop.setXF v.sq P.info k xs[k] (F xs[k])) s2 := by
        intro s2
        unfold cmStore
        show Run.bind _ _ _ = _
        unfold Run.bind
        rw [Outcome.get_of_lt hkl]
        show Run.bind _ _ _ = _
        unfold Run.bind
        rw [Outcome.get_of_lt (show k < (xs.map F).length by simpa using hkl), List.getElem_map]
        rfl
      have htk : (xs.take (k + 1)).map (fun x => (x, (Except.ok (F x) : User (List (Fl K))))) =
          (xs.take k).map (fun x => (x, Except.ok (F x))) ++ [(xs[k], Except.ok (F xs[k]))] := by
        rw [List.take_succ_eq_append_getElem hkl, List.map_append]; rfl
      rw [htk]
      constructor
      · rintro ⟨u, s2, h1, h2⟩
        obtain ⟨s3, h3, rfl⟩ := (ih (by omega) s2).mp h1
        rw [hset] at h2
        rcases hr : Pop.setXF v.sq P.info k xs[k] (F xs[k]) s3.pop with ⟨o, p⟩
        unfold onPop at h2
        dsimp only at h2
        rw [hr] at h2
        obtain ⟨e1, rfl⟩ := Prod.mk.inj h2
        dsimp only at e1
        refine ⟨{ s3 with pop := p }, bind_ok_iff.mpr ⟨(), s3, h3, ?_⟩, ?_⟩
        · rw [hstore]
          unfold onPop
          rw [hr, e1]
        · simp
      · rintro ⟨s1, h1, rfl⟩
        obtain ⟨u, s3, h3, h4⟩ := bind_ok_iff.mp h1
        refine ⟨(), _, (ih (by omega) _).mpr ⟨s3, h3, rfl⟩, ?_⟩
        rw [hstore] at h4
        rw [hset]
        rcases hr : Pop.setXF v.sq P.info k xs[k] (F xs[k]) s3.pop with ⟨o, p⟩
        unfold onPop at h4 ⊢
        dsimp only
        rw [hr] at h4 ⊢
        obtain ⟨e1, rfl⟩ := Prod.mk.inj h4
        dsimp only at e1
        rw [e1]
        simp
  unfold cmEval
  dsimp only
  rw [key lam le_rfl s']
  show _ ↔ Run.bind _ _ _ = _
  unfold Run.bind
  rw [evalBatch_of hF hnx hnf hnc hx s]
  dsimp only
  obtain ⟨h1, h2⟩ := evsFree_foldlM (cmStore_evs v P xs (xs.map F)) (List.range lam) () s (s.evs ++ xs.map (fun x => (x, Except.ok (F x))))
  rw [h1, List.take_of_length_le hl.le]
  constructor
  · rintro ⟨s1, h3, rfl⟩
    rw [h3]
  · intro h
    obtain ⟨e1, e2⟩ := Prod.mk.inj h
    exact ⟨_, Prod.ext e1 rfl, e2.symm⟩

theorem genLoop_keeps {β : Type} {I : St K σ → Prop} {body : Nat → β → Run (St K σ) (β × Bool)} (hk : ∀ g b, Keeps I (body g b) (fun _ => True))
    (gens : Nat) : ∀ (fuel g : Nat) (b : β), Keeps I (genLoop body gens fuel g b) (fun _ => True) := by
  intro fuel
  induction fuel with
  | zero => intro g b; exact keeps_lift _
  | succ n ih =>
    intro g b
    rw [genLoop]
    split
    · refine keeps_bind (hk g b) fun r _ => ?_
      split
      · exact keeps_pure trivial
      · exact ih _ _
    · exact keeps_pure trivial

theorem keeps_lift_of {τ α : Type} {I : τ → Prop} {Q : α → Prop} {o : Outcome α} (h : ∀ a, o = .ok a → Q a) : Keeps I (Run.lift o : Run τ α) Q := by
  intro s a s' hI e
  obtain ⟨e1, rfl⟩ := Prod.mk.inj e
  exact ⟨hI, h a e1⟩

theorem mapM_inv {α β : Type} {f : α → Outcome β} {Q : β → Prop} (hf : ∀ a b, f a = .ok b → Q b) : ∀ {l : List α} {r : List β},
    l.mapM f = .ok r → r.length = l.length ∧ ∀ b ∈ r, Q b := by
  intro l
  induction l with
  | nil => intro r h; cases h; simp
  | cons a l ih =>
    intro r h
    rw [List.mapM_cons] at h
    cases hb : f a with
    | ok b =>
      rw [hb, Outcome.bind_ok] at h
      cases hr : l.mapM f with
      | ok r' =>
        rw [hr, Outcome.bind_ok] at h
        cases h
        obtain ⟨h1, h2⟩ := ih hr
        refine ⟨by simp [h1], fun c hc => ?_⟩
        rcases List.mem_cons.mp hc with rfl | hc
        · exact hf a _ hb
        · exact h2 c hc
      | _ => rw [hr] at h; cases h
    | _ => rw [hb] at h; cases h

theorem cmPoint_len {v : CmEnv K σ} {P : AProb K} {A : Cmaes K} {b : CmVars K P.info.nx} {z : Vec K P.info.nx} {x : List (Fl K)}
    (h : cmPoint v P A b z = .ok x) : x.length = P.info.nx := by
  unfold cmPoint at h
  dsimp only at h
  split at h
  · cases h1 : vecOf P.info.nx P.lb with
    | ok lb =>
      rw [h1, Outcome.bind_ok] at h
      cases h2 : vecOf P.info.nx P.ub with
      | ok ub =>
        rw [h2, Outcome.bind_ok] at h
        cases h
        simp
      | _ => rw [h2] at h; cases h
    | _ => rw [h1] at h; cases h
  · cases h
    simp

theorem keeps_cmDraw {I : St K σ → Prop} (hI : ∀ s e, I s → I { s with e := e }) (v : CmEnv K σ) (n : Nat) : ∀ (l : List Nat) (zs : List (Vec K n)),
    Keeps I (l.foldlM (cmDraw v n) zs) (fun r => r.length = zs.length + l.length) := by
  intro l
  induction l with
  | nil => intro zs; exact keeps_pure rfl
  | cons i l ih =>
    intro zs
    rw [List.foldlM_cons]
    have h1 : Keeps I (cmDraw v n zs i) (fun r => r.length = zs.length + 1) := by
      unfold cmDraw
      exact keeps_bind (keeps_onRng hI _) fun z _ => keeps_pure (by simp)
    refine keeps_bind h1 fun r hr => ?_
    intro s a s' hs e
    obtain ⟨h2, h3⟩ := ih r s a s' hs e
    refine ⟨h2, ?_⟩
    show a.length = _
    rw [h3, hr, List.length_cons]
    omega

/-- C112. If the fitness is a function of the point and the batch evaluator computes this function for each point, then a run with
the batch evaluator that ends without an exception does exactly the same as a run without: same population, same memory,
same random engine, same evaluations in the same order; and the other way round. -/
theorem C112_batch [IsStrictOrderedRing K] (v : CmEnv K σ) (P : AProb K) (A : Cmaes K) (b : Batch K) (F : List (Fl K) → List (Fl K)) (hF : BatchOf P b F)
    (hnx : 0 < P.info.nx) (hnobj : 0 < P.info.nobj) (hnc : P.info.nc = 0) (fuel : Nat) (m m' : CmMem K) (s s' : St K σ) (hi : Inv P.info s.pop) :
    cmEvolve v P A (some b) fuel m s = (.ok m', s') ↔ cmEvolve v P A none fuel m s = (.ok m', s') := by
  have hnf : 0 < P.info.nf := by unfold Info.nf; omega
  let I : St K σ → Prop := fun s1 => Inv P.info s1.pop ∧ s1.pop.id.length = s.pop.id.length
  have hrng : ∀ (s : St K σ) e, I s → I { s with e := e } := fun _ _ h => h
  have set : ∀ (xs : List (List (Fl K))) (u : Unit) (i : Nat), Keeps I (cmSet v P xs u i) (fun _ => True) := by
    intro xs u i
    unfold cmSet setX
    refine keeps_bind (keeps_lift _) fun x _ => keeps_bind (R := fun _ => True) ?_ fun f _ => ?_
    · intro s1 a s2 hI e
      unfold eval at e
      rw [← (Prod.mk.inj e).2]
      split <;> exact ⟨hI, trivial⟩
    intro s1 a s2 hI e
    have key := op_run (sq := v.sq) hnx hnobj hI.1 (.setXF i x f)
    change wp (Pop.setXF v.sq P.info i x f) _ _ _ at key
    unfold onPop at e
    unfold wp at key
    rcases hr : Pop.setXF v.sq P.info i x f s1.pop with ⟨o, p⟩
    rw [hr] at key e
    obtain ⟨e1, rfl⟩ := Prod.mk.inj e
    dsimp only at e1
    subst e1
    obtain ⟨k1, k2, -⟩ := key
    exact ⟨⟨k1, (congrArg List.length k2.2.1).trans hI.2⟩, trivial⟩
  have seed : Keeps I (newSeed v.toEnv P) (fun _ => True) := by
    unfold newSeed
    split
    · exact keeps_bind (keeps_onRng hrng _) fun _ _ => keeps_pure trivial
    · exact keeps_pure trivial
  have evl : ∀ xs, Keeps I (cmEval v P none s.pop.id.length xs) (fun _ => True) := by
    intro xs
    unfold cmEval
    exact keeps_foldlM (set xs) _ _
  have pts : ∀ (b : CmVars K P.info.nx) (zs : List (Vec K P.info.nx)), Keeps I (Run.lift (zs.mapM (cmPoint v P A b)))
      (fun xs => xs.length = zs.length ∧ ∀ x ∈ xs, x.length = P.info.nx) := by
    intro b zs
    exact keeps_lift_of fun xs h => mapM_inv (fun _ _ h => cmPoint_len h) h
  have gen : ∀ g c, Keeps I (cmGen v P A none s.pop.id.length g c) (fun _ => True) := by
    intro g c
    unfold cmGen
    refine keeps_bind (keeps_cmDraw hrng v _ _ _) fun zs _ => keeps_bind (keeps_lift _) fun z _ => ?_
    split
    · exact keeps_pure trivial
    refine keeps_bind keeps_get fun s1 _ => keeps_bind (keeps_lift _) fun df _ => ?_
    split
    · exact keeps_pure trivial
    exact keeps_bind (pts _ _) fun xs _ => keeps_bind seed fun _ _ => keeps_bind (evl xs) fun _ _ => keeps_bind keeps_get fun _ _ =>
      keeps_bind (keeps_lift _) fun _ _ => keeps_bind (keeps_lift _) fun _ _ => keeps_pure trivial
  have same : ∀ g c, SameOk I (cmGen v P A none s.pop.id.length g c) (cmGen v P A (some b) s.pop.id.length g c) := by
    intro g c
    unfold cmGen
    refine sameOk_bind (sameOk_refl _) (keeps_cmDraw hrng v _ _ _) fun zs hz => sameOk_bind (sameOk_refl _) (keeps_lift _) fun z _ => ?_
    split
    · exact sameOk_refl _
    refine sameOk_bind (sameOk_refl _) keeps_get fun s1 _ => sameOk_bind (sameOk_refl _) (keeps_lift _) fun df _ => ?_
    split
    · exact sameOk_refl _
    refine sameOk_bind (sameOk_refl _) (pts _ _) fun xs hxs => sameOk_bind (sameOk_refl _) seed fun _ _ => sameOk_bind ?_ (evl xs) fun _ _ => sameOk_refl _
    intro s2 r s3 _
    exact cmEval_batch v hF hnx hnf hnc (by rw [hxs.1, hz]; simp) hxs.2 _ _
  have key : SameOk I (cmEvolve v P A none fuel m) (cmEvolve v P A (some b) fuel m) := by
    unfold cmEvolve
    refine sameOk_bind (sameOk_refl _) keeps_get fun s1 h1 => ?_
    rw [h1.2]
    split
    · exact sameOk_refl _
    split
    · exact sameOk_refl _
    split
    · exact sameOk_refl _
    split
    · exact sameOk_refl _
    split
    · exact sameOk_refl _
    split
    · exact sameOk_refl _
    · refine sameOk_bind (sameOk_refl _) (keeps_lift _) fun V _ => sameOk_bind (genLoop_same same gen _ _ _ _) (genLoop_keeps gen _ _ _ _) fun _ _ => sameOk_refl _
  exact (key s m' s' ⟨hi, rfl⟩).symm

/-! ### Examples -/

/-- The identity for the logarithm and the square root, 1 for the exponential, and a solver for diagonal matrices. -/
def cmDemoEnv : CmEnv ℚ (List ℚ) :=
  { algDemoEnv with
    d := sgaDist, lg := id, ex := fun _ => .fin 1, pw := fun a _ => a,
    eig := fun {n} M => if ∀ i j : Fin n, i ≠ j → M i j = .fin 0 then some (laId n, fun j => M j j) else none }

def cmDemoEig {n : Nat} (M : Matrix (Fin n) (Fin n) ℚ) : Option (Matrix (Fin n) (Fin n) ℚ × (Fin n → ℚ)) :=
  if ∀ i : Fin n, ∀ j : Fin n, i ≠ j → Fl.fin (M i j) = .fin 0 then some (1, fun j => M j j) else none

def cmDemoFns : CmaFns ℚ := ⟨id, id, fun _ => 1, fun a _ => a, cmDemoEig⟩

def cmDemoPars (memory force : Bool) : Cmaes ℚ := ⟨2, .fin (-1), .fin (-1), .fin (-1), .fin (-1), .fin (1 / 2), .fin 0, .fin 0, memory, force⟩

theorem cmDemo_fns : CmFns cmDemoEnv cmDemoFns where
  op := rfl
  int _ := rfl
  log _ _ := rfl
  mono _ _ _ _ h := h
  sqrt _ _ := rfl
  sqrtPos _ h := h
  exp _ := rfl
  expPos _ := one_pos
  pow _ _ _ _ := rfl
  powLt _ _ _ h _ := h
  eig {n} M := by
    show (if ∀ i j : Fin n, i ≠ j → flMat M i j = .fin 0 then some (laId n, fun j => flMat M j j) else none) = _
    show _ = (cmDemoEig M).map _
    unfold cmDemoEig
    by_cases h : ∀ i : Fin n, ∀ j : Fin n, i ≠ j → Fl.fin (M i j) = .fin 0
    · rw [if_pos (show ∀ i : Fin n, ∀ j : Fin n, i ≠ j → flMat M i j = .fin 0 from h), if_pos h, laId_exact]
      rfl
    · rw [if_neg (show ¬ ∀ i : Fin n, ∀ j : Fin n, i ≠ j → flMat M i j = .fin 0 from h), if_neg h]
      rfl

theorem cmDemo_rates (memory force : Bool) : CmRates (cmDemoPars memory force) cmDemoFns xnDemo.info.nx xnDemoSt.pop.id.length
    (cmaDefaults cmDemoFns xnDemo.info.nx (xnDemoSt.pop.id.length / 2)) :=
  C109_rates cmDemoFns cmDemo_fns.mono (by decide) (by decide) _ rfl rfl rfl rfl

example : wp (cmEvolve cmDemoEnv xnDemo (cmDemoPars true true) none 3 (cmFresh (cmDemoPars true true)))
    (fun _ s' => CmDone xnDemo (cmDemoPars true true) xnDemoSt s') (CmFailed (CmBox (cmDemoPars true true) xnDemo) xnDemo none xnDemoSt) xnDemoSt :=
  C108_evolve_partial cmDemoEnv _ demoGen_lawful insSort_valid xnDemo xnDemo_box rfl rfl _ (by decide) (by decide) none (by simp) xnDemoSt xnDemo_inv
    (by decide) (by decide) _ 3 (by decide)

/-- two generations; the matrix is decomposed -/
example : (cmEvolve cmDemoEnv xnDemo (cmDemoPars true false) none 3 (cmFresh (cmDemoPars true false)) xnDemoSt).2.evs.length = 10 ∧
    (cmEvolve cmDemoEnv xnDemo (cmDemoPars true false) none 3 (cmFresh (cmDemoPars true false)) xnDemoSt).2.pop.f ≠ xnDemoSt.pop.f := by
  decide +kernel

example := C109_evolve cmDemoEnv _ demoGen_lawful insSort_valid xnDemo xnDemo_box rfl rfl (cmDemoPars true false) (by decide) (by decide) none (by simp)
  xnDemoSt xnDemo_inv (by decide) (by decide) xnDemo_fin (by decide +kernel) ⟨fun _ => 0, fun _ => 10, false, 5⟩ (by decide +kernel) (by decide +kernel) rfl rfl
  cmDemoFns cmDemo_fns _ (cmDemo_rates true false) (1 / 2) rfl (by norm_num) (cmFresh (cmDemoPars true false))
  (fun _ h => by cases h) 3 (by decide)

/-- the weights with the logarithm of the reals -/
example (mu : Nat) (h : 0 < mu) : (cmaWeights Real.log mu).sum = 1 ∧ 1 ≤ cmaMueff (cmaWeights Real.log mu) :=
  ⟨(C109_weights Real.strictMonoOn_log h).2.1, C109_mueff Real.strictMonoOn_log h⟩

example := C110_run_partial cmDemoEnv _ demoGen_lawful insSort_valid xnDemo xnDemo_box rfl rfl (cmDemoPars true false) (by decide) (by decide) none (by simp)
  xnDemoSt xnDemo_inv (by decide) (by decide) xnDemo_fin (by decide +kernel) cmDemoFns cmDemo_fns
  ⟨rfl, rfl, rfl, rfl⟩ (by decide) (1 / 2) rfl (by norm_num) (cmFresh (cmDemoPars true false)) (Or.inr (Or.inl (by decide))) 3 (by decide)

/-- ten variables, twenty individuals -/
example (F : CmaFns ℝ) (hF : F.L = Real.log) : CmaSound (cmaDefaults F 10 (20 / 2)) :=
  C110_default_rates F (by rw [hF]; exact Real.strictMonoOn_log) (by decide) (by decide) (by decide)

/-- a solver for diagonal matrices -/
noncomputable def diagSolver {n : Nat} (M : Matrix (Fin n) (Fin n) ℝ) : Option (Matrix (Fin n) (Fin n) ℝ × (Fin n → ℝ)) :=
  open Classical in if M = Matrix.diagonal (fun j => M j j) then some (1, fun j => M j j) else none

theorem diagSolver_ok : EigenOk (realFns diagSolver) where
  eig {n} M B l hM h := by
    change diagSolver M = _ at h
    unfold diagSolver at h
    split at h
    · rename_i hd
      cases h
      refine ⟨by simp, ?_⟩
      rw [Matrix.transpose_one, Matrix.one_mul, Matrix.mul_one]
      exact hd
    · cases h
  sqrt a h := ⟨Real.sqrt_nonneg _, Real.mul_self_sqrt h⟩

/-- two variables: after a decomposition of the identity the axes are those of the matrix -/
example : CmaAxes (cmaSplit (realFns diagSolver) (n := 2) ⟨1, 0, 0, 0, 1, 0, 0, 0, 0, 0⟩) := by
  refine (split_axes diagSolver_ok (c := ⟨1, 0, 0, 0, 1, 0, 0, 0, 0, 0⟩) Matrix.transpose_one).elim (fun h => ?_) (fun h => h ?_)
  · exfalso
    have h1 := h.1
    have hs : diagSolver (1 : Matrix (Fin 2) (Fin 2) ℝ) = some (1, fun j => (1 : Matrix (Fin 2) (Fin 2) ℝ) j j) := by
      unfold diagSolver
      rw [if_pos]
      ext i j
      simp [Matrix.one_apply, Matrix.diagonal_apply]
    unfold cmaSplit at h1
    dsimp only at h1
    rw [half_symm Matrix.transpose_one, show (realFns diagSolver).Ei (1 : Matrix (Fin 2) (Fin 2) ℝ) = _ from hs] at h1
    exact one_ne_zero h1
  · intro x
    show _ ≤ quad (1 : Matrix (Fin 2) (Fin 2) ℝ) x
    unfold quad
    rw [Matrix.one_mulVec]
    have h0 : 0 ≤ x ⬝ᵥ x := Finset.sum_nonneg fun j _ => mul_self_nonneg _
    exact div_le_self h0 (by norm_num)

/-- C108 (NaN). The constructor accepts `sigma0 = NaN`, and then, although bounds are enforced, points outside the bounds (NaN) are
evaluated. -/
theorem C108_nan : ∃ (A : Cmaes ℚ) (r : User (List (Fl ℚ))),
    cmCtor 1 (.fin (-1)) (.fin (-1)) (.fin (-1)) (.fin (-1)) Fl.nan (.fin 0) (.fin 0) false true = .ok A ∧
    (cmEvolve cmDemoEnv algDemo A none 2 (cmFresh A) deDemoSt).2.evs[0]? = some ([Fl.nan], r) ∧
    ¬ InBox algDemo.lb algDemo.ub 0 [Fl.nan] := by
  refine ⟨⟨1, .fin (-1), .fin (-1), .fin (-1), .fin (-1), .nan, .fin 0, .fin 0, false, true⟩, .ok [.nan], by decide +kernel, by decide +kernel, ?_⟩
  rintro ⟨_, h⟩
  have := (h 0 (.fin 0) (.fin 10) .nan rfl rfl rfl).2.1
  simp [Fl.le_def, Fl.cls] at this

example : cmEvolve cmDemoEnv xnDemo (cmDemoPars true true) none 3 (cmFresh (cmDemoPars true true)) xnDemoSt =
    cmEvolve cmDemoEnv xnDemo { cmDemoPars true true with memory := false } none 3 ⟨2, 5, ⟨.fin 1, fun _ => .fin 7, laId 2, laId 2, laId 2, laId 2, fun _ => .fin 0,
      fun _ => .fin 0, 0, 0⟩⟩ xnDemoSt :=
  C111_first _ _ _ _ _ _ _ (by decide)

/-- the sum of the squares of pairs of numbers -/
def sqBatch : Batch ℚ := fun _ dvs => .ok (go dvs)
where go : List (Fl ℚ) → List (Fl ℚ)
  | a :: b :: r => Fl.add (Fl.add (.fin 0) (Fl.mul a a)) (Fl.mul b b) :: go r
  | _ => []

theorem sqBatch_of : BatchOf xnDemo sqBatch sqBatch.go where
  fit := by
    intro h x hx
    match x, hx with
    | [a, b], _ => rfl
  dim := by
    intro x hx
    match x, hx with
    | [a, b], _ => rfl
  batch := by
    intro h xs hx
    show Except.ok (sqBatch.go xs.flatten) = _
    congr 1
    induction xs with
    | nil => rfl
    | cons x xs ih =>
      rw [List.flatten_cons, List.map_cons, List.flatten_cons, ← ih (fun y hy => hx y (by simp [hy]))]
      match x, hx x (by simp) with
      | [a, b], _ => rfl

example (m : CmMem ℚ) (s : St ℚ (List ℚ)) : cmEvolve cmDemoEnv xnDemo (cmDemoPars true true) (some sqBatch) 3 (cmFresh (cmDemoPars true true)) xnDemoSt = (.ok m, s) ↔
    cmEvolve cmDemoEnv xnDemo (cmDemoPars true true) none 3 (cmFresh (cmDemoPars true true)) xnDemoSt = (.ok m, s) :=
  C112_batch cmDemoEnv xnDemo _ sqBatch _ sqBatch_of (by decide) (by decide) rfl 3 _ _ _ _ xnDemo_inv

end Verif.Props
