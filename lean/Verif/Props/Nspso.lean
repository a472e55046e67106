import Verif.Proof.Nspso
import Mathlib.Tactic.IntervalCases

/-!
# A run of nspso
-/

set_option autoImplicit false

namespace Verif.Props

open Verif Run Prob Pop Alg Rnd MO Spec

variable {K σ : Type} [Field K] [LinearOrder K]

/-- The object remembers velocities and best points for a population of `n`, as far as it will use them. -/
structure Remembers (P : AProb K) (A : Nspso K) (n : Nat) (m : NspMem K) : Prop where
  vel : A.memory = true → m.vel.length = n → Vecs n P.info.nx m.vel
  best : A.memory = true → m.bestF.length = n → Vecs n P.info.nx m.bestX ∧ ∀ f ∈ m.bestF, f.length = P.info.nf

/-- What a run has done. `m`: what the object remembers before, `m'`: what it remembers after it. -/
structure NspDone (v : MoEnv K σ) (P : AProb K) (A : Nspso K) (m : NspMem K) (s : St K σ) (m' : NspMem K) (s' : St K σ) : Prop where
  inv : Inv P.info s'.pop
  id : s'.pop.id = s.pop.id
  mem : MemFor P s.pop.id.length m'
  run : ∃ V0 bestX0 bestF0 : List (List (Fl K)),
    (A.memory = true → m.vel.length = s.pop.id.length → V0 = m.vel) ∧
    (A.memory = false ∨ m.vel.length ≠ s.pop.id.length → ∀ w ∈ V0, ∀ d, d < P.info.nx →
      v.op.mul (.fin (-1)) (topSpeed v.op P A d) ≤ comp w d ∧ comp w d ≤ topSpeed v.op P A d) ∧
    (A.memory = true → m.bestF.length = s.pop.id.length → bestX0 = m.bestX ∧ bestF0 = m.bestF) ∧
    (A.memory = false ∨ m.bestF.length ≠ s.pop.id.length → bestX0 = s.pop.x ∧ bestF0 = s.pop.f) ∧
    Steps (NspGeneration v P A s.pop.id.length) A.gens ⟨s.pop.x, s.pop.f, V0, bestX0, bestF0, s.evs⟩ (nspSwarm m' s')
  evals : ∃ new, s'.evs = s.evs ++ new ∧ new.length = A.gens * s.pop.id.length ∧ (∀ p ∈ new, InBox P.lb P.ub 0 p.1) ∧
    ∀ p ∈ new, ∃ h, p.2 = P.fit h p.1

section
variable [IsStrictOrderedRing K]

theorem nspRecall_ok {P : AProb K} {A : Nspso K} {s : St K σ} (hi : Inv P.info s.pop) (hx : ∀ x ∈ s.pop.x, AllFin x) {m : NspMem K}
    (hm : Remembers P A s.pop.id.length m) : (nspRecall A s.pop m).vel = m.vel ∧
    Vecs s.pop.id.length P.info.nx (nspRecall A s.pop m).bestX ∧ (nspRecall A s.pop m).bestF.length = s.pop.id.length ∧
    (∀ f ∈ (nspRecall A s.pop m).bestF, f.length = P.info.nf) ∧
    (A.memory = true → m.bestF.length = s.pop.id.length → (nspRecall A s.pop m).bestX = m.bestX ∧ (nspRecall A s.pop m).bestF = m.bestF) ∧
    (A.memory = false ∨ m.bestF.length ≠ s.pop.id.length → (nspRecall A s.pop m).bestX = s.pop.x ∧ (nspRecall A s.pop m).bestF = s.pop.f) := by
  have hfl := hi.wf.fs
  have fresh : Vecs s.pop.id.length P.info.nx s.pop.x := ⟨hi.wf.xs, hi.wf.dimX, hx⟩
  unfold nspRecall
  by_cases c1 : m.bestF.length ≠ s.pop.f.length ∧ A.memory = true
  · rw [if_pos c1]
    exact ⟨rfl, fresh, hfl, hi.wf.dimF, fun _ h => absurd (h.trans hfl.symm) c1.1, fun _ => ⟨rfl, rfl⟩⟩
  rw [if_neg c1]
  by_cases c2 : A.memory = false
  · rw [if_pos c2]
    exact ⟨rfl, fresh, hfl, hi.wf.dimF, (fun h => by rw [c2] at h; cases h), fun _ => ⟨rfl, rfl⟩⟩
  rw [if_neg c2]
  have hmem : A.memory = true := by simpa using c2
  have hl : m.bestF.length = s.pop.id.length := by
    by_contra h
    exact c1 ⟨fun h' => h (h'.trans hfl), hmem⟩
  refine ⟨rfl, (hm.best hmem hl).1, hl, (hm.best hmem hl).2, fun _ _ => ⟨rfl, rfl⟩, fun h => ?_⟩
  rcases h with h | h
  · exact absurd h c2
  · exact absurd hl h

theorem nsp_run {v : MoEnv K σ} {rep : K → Prop} (hg : v.g.Lawful rep) (hs : ValidSort v.srt) (hop : PsoOps v.toEnv) {P : AProb K} (hP : FiniteBox P)
    (hnobj : 2 ≤ P.info.nobj) (hnc : P.info.nc = 0) (hst : P.info.stochastic = false) {A : Nspso K} (hA : NspPars A) (hg0 : 0 < A.gens)
    (hgens : A.gens + 1 < 2 ^ 32) {bfe : Option (Batch K)} (hok : ∀ b, bfe = some b → BatchOk P b) {s : St K σ} (hi : Inv P.info s.pop)
    (hn2 : 2 ≤ s.pop.id.length) (hn : s.pop.id.length < 2 ^ 31) (hx : ∀ x ∈ s.pop.x, AllFin x) {m : NspMem K}
    (hm : Remembers P A s.pop.id.length m) {fuel : Nat} (hfuel : A.gens < fuel) :
    wpn (SameDraws v.g fuel) (nspEvolve v P A bfe fuel m) (fun m' s' => NspDone v P A m s m' s') (MgFailed (InBox P.lb P.ub 0) P bfe s) s := by
  have hnf : P.info.nf = P.info.nobj := by unfold Info.nf; unfold Info.nc at hnc; omega
  obtain ⟨r1, r2, r3, r4, r5, r6⟩ := nspRecall_ok hi hx hm
  unfold nspEvolve
  rw [wpn_bind, wpn_get', if_neg (by simp [hst]), if_neg (by omega), if_neg (by omega), if_neg (by omega), if_neg (by omega)]
  dsimp only
  rw [wpn_bind, wpn_onRng, r1]
  refine wpn_of_wp ((wp_psoInitV (v := v.toEnv) hg hop hP hA.toPso (n := s.pop.id.length) (V := m.vel) hm.vel
    (E := fun e p => MgFailed (InBox P.lb P.ub 0) P bfe s e { s with e := p }) s.e).mono ?_ (fun _ _ h => h))
  rintro V0 e ⟨hv1, hv2, hv3⟩
  have key := wpn_genLoop (N := SameDraws v.g fuel) (body := nspGen v P A bfe s.pop.id.length fuel) hgens (E := MgFailed (InBox P.lb P.ub 0) P bfe s)
    (fun k c s' => MemFor P s.pop.id.length c ∧ (∀ x ∈ s'.pop.x, AllFin x) ∧
      Steps (NspGeneration v P A s.pop.id.length) k
        ⟨s.pop.x, s.pop.f, V0, (nspRecall A s.pop m).bestX, (nspRecall A s.pop m).bestF, s.evs⟩ (nspSwarm c s') ∧
      ∃ new, new.length = k * s.pop.id.length ∧ Tracked P s new s') ?_ fuel 0
    ⟨V0, (nspRecall A s.pop m).bestF, (nspRecall A s.pop m).bestX⟩ { s with e := e } (by omega) (by omega) ?_
  · refine key.mono ?_ (fun _ _ h => h)
    rintro c s2 ⟨hc, _, hSt, new, hl, ht⟩
    exact ⟨ht.inv, ht.id, hc, ⟨V0, _, _, hv2, hv3, r5, r6, hSt⟩, new, ht.evs, hl, ht.box, ht.user⟩
  · rintro k c s2 hk ⟨hc, hx2, hSt, new, hl, ht⟩
    refine (wpn_nspGen hg hs hop hP hnobj hnc hA hok hn2 hn fuel ht (by rw [ht.id]) hx2 hc (k + 1)).mono ?_ (fun _ _ h => h)
    rintro r s3 ⟨hr, hc3, hx3, hG, gen, hgl, ht3⟩
    exact ⟨hr, hc3, hx3, .snoc hSt hG, new ++ gen, by rw [List.length_append, hl, hgl, Nat.add_mul, Nat.one_mul], ht3⟩
  · refine ⟨⟨hv1, r2, r3, r4⟩, hx, .refl _, [], by simp, ?_⟩
    exact tracked_rng (tracked_refl hi) e

/-- C101 (constructor). Of numbers, it takes exactly those in the documented ranges, and throws for all others. -/
theorem C101_ctor (gens : Nat) (o c1 c2 chi m : K) (range : Nat) (mech : String) (memory : Bool) :
    (0 ≤ o ∧ o ≤ 1 ∧ 0 < c1 ∧ 0 < c2 ∧ 0 < chi ∧ 0 < m ∧ m ≤ 1 ∧ range ≤ 100 ∧
        (mech = "crowding distance" ∨ mech = "niche count" ∨ mech = "max min") →
      nspCtor gens (.fin o) (.fin c1) (.fin c2) (.fin chi) (.fin m) range mech memory =
        .ok ⟨gens, .fin o, .fin c1, .fin c2, .fin chi, .fin m, range, mech, memory⟩) ∧
    (¬ (0 ≤ o ∧ o ≤ 1 ∧ 0 < c1 ∧ 0 < c2 ∧ 0 < chi ∧ 0 < m ∧ m ≤ 1 ∧ range ≤ 100 ∧
        (mech = "crowding distance" ∨ mech = "niche count" ∨ mech = "max min")) →
      nspCtor gens (.fin o) (.fin c1) (.fin c2) (.fin chi) (.fin m) range mech memory = .throws .invalidArgument) := by
  have hl : ∀ a b : K, (Fl.lt (.fin a) (.fin b) = true ↔ a < b) := fun a b => by rw [Fl.lt_iff (by simp) (by simp)]; simp
  have hle : ∀ a b : K, (Fl.le (.fin a) (.fin b) = true ↔ a ≤ b) := fun a b => by rw [Fl.le_iff (by simp) (by simp)]; simp
  unfold nspCtor
  simp only [Fl.gt, Bool.or_eq_true, hl, hle]
  constructor
  · rintro ⟨h1, h2, h3, h4, h5, h6, h7, h8, h9⟩
    rw [if_neg (by push Not; exact ⟨h1, h2⟩), if_neg (by push Not; exact ⟨⟨h3, h4⟩, h5⟩), if_neg (by push Not; exact ⟨h6, h7⟩),
      if_neg (by omega), if_neg (by tauto)]
  · intro h
    by_contra hne
    refine h ?_
    by_cases c1' : o < 0 ∨ 1 < o
    · rw [if_pos c1'] at hne; exact absurd rfl hne
    rw [if_neg c1'] at hne
    by_cases c2' : (c1 ≤ 0 ∨ c2 ≤ 0) ∨ chi ≤ 0
    · rw [if_pos c2'] at hne; exact absurd rfl hne
    rw [if_neg c2'] at hne
    by_cases c3 : m ≤ 0 ∨ 1 < m
    · rw [if_pos c3] at hne; exact absurd rfl hne
    rw [if_neg c3] at hne
    by_cases c4 : range > 100
    · rw [if_pos c4] at hne; exact absurd rfl hne
    rw [if_neg c4] at hne
    by_cases c5 : mech ≠ "crowding distance" ∧ mech ≠ "niche count" ∧ mech ≠ "max min"
    · rw [if_pos c5] at hne; exact absurd rfl hne
    push Not at c1' c2' c3
    exact ⟨c1'.1, c1'.2, c2'.1.1, c2'.1.2, c2'.2, c3.1, c3.2, by omega, by tauto⟩

/-- the parameters of an algorithm the constructor has made from numbers -/
theorem nspPars_of {gens : Nat} {o c1 c2 chi m : K} {range : Nat} {mech : String} {memory : Bool} {A : Nspso K}
    (h : nspCtor gens (.fin o) (.fin c1) (.fin c2) (.fin chi) (.fin m) range mech memory = .ok A) : NspPars A := by
  obtain ⟨h1, h2⟩ := C101_ctor gens o c1 c2 chi m range mech memory
  by_cases c : 0 ≤ o ∧ o ≤ 1 ∧ 0 < c1 ∧ 0 < c2 ∧ 0 < chi ∧ 0 < m ∧ m ≤ 1 ∧ range ≤ 100 ∧
      (mech = "crowding distance" ∨ mech = "niche count" ∨ mech = "max min")
  · rw [h1 c, Outcome.ok.injEq] at h
    subst h
    exact ⟨⟨_, rfl⟩, ⟨_, rfl⟩, ⟨_, rfl⟩, ⟨_, rfl⟩, ⟨_, c.2.2.2.2.2.1.le, rfl⟩, c.2.2.2.2.2.2.2.1, c.2.2.2.2.2.2.2.2⟩
  · rw [h2 c] at h; cases h

/-- C101. A run of nspso with an object the constructor has made: exactly the asked number of generations, each of which moves
every particle by the formula (attracted by the best point with its number and by the best point with the number of a leader,
limited in velocity, stopped at the bounds), evaluates every point reached once, inside the bounds and in order (by the batch
evaluator if there is one), and keeps the best of old and new. The returned population are the points of the last generation.
It ends unless the engine gives the same number again and again, or with an exception of the user's code.
Missing: NaN or infinite parameters, memory of a problem with another dimension; it is false there. -/
theorem C101_evolve_partial (v : MoEnv K σ) (rep : K → Prop) (hg : v.g.Lawful rep) (hs : ValidSort v.srt) (hop : PsoOps v.toEnv) (P : AProb K) (hP : FiniteBox P)
    (hnobj : 2 ≤ P.info.nobj) (hnc : P.info.nc = 0) (hst : P.info.stochastic = false) (gens : Nat) (o c1 c2 chi mv : K) (range : Nat) (mech : String)
    (memory : Bool) (A : Nspso K) (hA : nspCtor gens (.fin o) (.fin c1) (.fin c2) (.fin chi) (.fin mv) range mech memory = .ok A) (hg0 : 0 < A.gens)
    (hgens : A.gens + 1 < 2 ^ 32) (bfe : Option (Batch K)) (hok : ∀ b, bfe = some b → BatchOk P b) (s : St K σ) (hi : Inv P.info s.pop)
    (hn2 : 2 ≤ s.pop.id.length) (hn : s.pop.id.length < 2 ^ 31) (hx : ∀ x ∈ s.pop.x, AllFin x) (m : NspMem K)
    (hm : Remembers P A s.pop.id.length m) (fuel : Nat) (hfuel : A.gens < fuel) :
    wpn (SameDraws v.g fuel) (nspEvolve v P A bfe fuel m) (fun m' s' => NspDone v P A m s m' s') (MgFailed (InBox P.lb P.ub 0) P bfe s) s :=
  nsp_run hg hs hop hP hnobj hnc hst (nspPars_of hA) hg0 hgens hok hi hn2 hn hx hm hfuel

end

/-- C101 (refusals): a stochastic problem, constraints, a single objective, fewer than two individuals. Nothing changes. -/
theorem C101_throws (v : MoEnv K σ) (P : AProb K) (A : Nspso K) (bfe : Option (Batch K)) (fuel : Nat) (m : NspMem K) (s : St K σ)
    (h : P.info.stochastic = true ∨ P.info.nc ≠ 0 ∨ P.info.nf < 2 ∨ s.pop.id.length < 2) :
    nspEvolve v P A bfe fuel m s = (.throws .invalidArgument, s) := by
  unfold nspEvolve
  show Run.bind Run.get _ s = _
  simp only [Run.bind, Run.get]
  split
  · rfl
  split
  · rfl
  split
  · rfl
  split
  · rfl
  · exfalso
    rename_i h1 h2 h3 h4
    rcases h with h | h | h | h
    · exact h1 h
    · exact h2 h
    · exact h3 h
    · omega

/-- C101 (nothing to do). With no generations asked for, nothing changes, neither the population nor the object. -/
theorem C101_no_generations (v : MoEnv K σ) (P : AProb K) (A : Nspso K) (hA : A.gens = 0) (bfe : Option (Batch K)) (fuel : Nat) (m : NspMem K) (s : St K σ)
    (hst : P.info.stochastic = false) (hnc : P.info.nc = 0) (hnf : 2 ≤ P.info.nf) (hn : 2 ≤ s.pop.id.length) :
    nspEvolve v P A bfe fuel m s = (.ok m, s) := by
  unfold nspEvolve
  show Run.bind Run.get _ s = _
  simp only [Run.bind, Run.get]
  rw [if_neg (by simp [hst]), if_neg (by omega), if_neg (by omega), if_neg (by omega), if_pos hA]
  rfl

/-! ## Who attracts whom -/

/-- C102 (the first generation of a run without memory; missing: later generations and runs with memory, where it is false). Every
particle is attracted by itself and by the position of another particle, which, unless the mechanism is "max min", nobody
dominates or, if all but one are dominated, is dominated by this one only. -/
theorem C102_leader_partial (v : MoEnv K σ) (P : AProb K) (A : Nspso K) (n : Nat) (a b : NspSwarm K) (h : NspGeneration v P A n a b)
    (hbest : a.bestX = a.x) (hmech : A.mech ≠ "max min") (i : Nat) (hi : i < n) :
    ∃ q : Nat, q ≠ i ∧ q < a.f.length ∧ (Unbeaten a.f q ∨ ∃ c : Nat, (∀ j, Unbeaten a.f j ↔ j = c) ∧ ∀ j, DomIdx a.f j q ↔ j = c) ∧
      NspMoved v.op P A (a.vel.getD i []) (a.x.getD i []) (a.x.getD i []) (a.x.getD q []) (b.x.getD i []) (b.vel.getD i []) := by
  obtain ⟨⟨L, hL, hall⟩, -⟩ := h
  obtain ⟨q, ⟨hqi, k, hk, -⟩, hmv⟩ := hall i hi
  rw [hbest] at hmv
  have hq : q ∈ L := List.mem_of_getElem? hk
  refine ⟨q, hqi, hL.lt q hq, ?_, hmv⟩
  rcases hL.front hmech with h | ⟨c, d, rfl, h1, h2, h3⟩
  · exact Or.inl ((h q).mp hq)
  · rcases List.mem_cons.mp hq with rfl | hq
    · exact Or.inl ((h1 q).mpr rfl)
    · rw [List.mem_singleton.mp hq]
      exact Or.inr ⟨c, h1, h3⟩

/-- C102 (max min). In exact arithmetic and for finite fitnesses, the maxmin value of an individual is negative exactly if no
other individual is at least as good in all objectives. -/
theorem C102_maxmin [IsStrictOrderedRing K] (fs : List (List (Fl K))) (M : Nat) (hM : ∀ f ∈ fs, f.length = M) (hfin : ∀ f ∈ fs, AllFin f) (i : Nat)
    (hi : i < fs.length) (m : Fl K) (h : IsMaxmin (Fl.exact K) fs M i m) :
    m < .fin 0 ↔ ∀ j : Nat, j < fs.length → j ≠ i → ¬ ∀ k : Nat, k < M → entry fs j k ≤ entry fs i k := by
  have hval : ∀ j k : Nat, j < fs.length → k < M → ∃ a : K, entry fs j k = .fin a := by
    intro j k hj hk
    have hmem := List.getElem_mem hj
    have hd := hM _ hmem
    unfold entry
    rw [List.getD_eq_getElem _ _ hj]
    exact comp_fin (hfin _ hmem) (by omega)
  have hsub : ∀ a b : K, (Fl.exact K).sub (.fin a) (.fin b) = .fin (a + -b) := fun _ _ => rfl
  have hlt : ∀ a b : K, ((Fl.fin a : Fl K) < .fin b ↔ a < b) := fun a b => by simp
  have hle : ∀ a b : K, ((Fl.fin a : Fl K) ≤ .fin b ↔ a ≤ b) := fun a b => by simp
  obtain ⟨⟨j0, hj0, hne0, h1⟩, h2⟩ := h
  constructor
  · intro hm j hj hne hall
    obtain ⟨k, hk, hg⟩ := h2 j hj hne
    have := hall k hk
    obtain ⟨a, ha⟩ := hval i k hi hk
    obtain ⟨b, hb⟩ := hval j k hj hk
    have hlt' := lt_of_le_of_lt hg hm
    unfold gap at hlt'
    rw [ha, hb, hsub, hlt] at hlt'
    rw [ha, hb, hle] at this
    linarith
  · intro hall
    have := hall j0 hj0 hne0
    push Not at this
    obtain ⟨k, hk, hlt'⟩ := this
    obtain ⟨a, ha⟩ := hval i k hi hk
    obtain ⟨b, hb⟩ := hval j0 k hj0 hk
    refine lt_of_le_of_lt (h1 k hk) ?_
    unfold gap
    rw [ha, hb, hlt] at hlt'
    rw [ha, hb, hsub, hlt]
    linarith

/-! ## What is kept -/

/-- C104 (what the object keeps; missing: the population, for which it is false, and the mechanism "max min"). A point that is
left out in a generation does not dominate any point that is kept. -/
theorem C104_kept_partial (v : MoEnv K σ) (P : AProb K) (A : Nspso K) (hmech : A.mech ≠ "max min") (n : Nat) (a b : NspSwarm K) (hn : 1 ≤ n)
    (hf : ∀ f ∈ b.f, f.length = P.info.nobj) (hbf : ∀ f ∈ a.bestF, f.length = P.info.nobj) (hl : a.bestF.length = n)
    (h : NspGeneration v P A n a b) :
    ∃ sel : List Nat, sel.length = n ∧ sel.Nodup ∧ b.bestF = sel.map (fun i => (b.f ++ a.bestF).getD i []) ∧
      b.bestX = sel.map (fun i => (b.x ++ a.bestX).getD i []) ∧
      ∀ i j : Nat, i ∈ sel → j ∉ sel → ¬ DomIdx (b.f ++ a.bestF) j i := by
  obtain ⟨-, -, hlf, -, -, sel, hb, e1, e2⟩ := h
  have htop := hb.2.1 hmech
  refine ⟨sel, hb.1, htop.nodup, e2, e1, ?_⟩
  rintro i j hi hj ⟨hj', hi', hdom⟩
  obtain ⟨t, ra, rb, ht, h1, h2, hle, -⟩ := htop.rest i hi j hj' hj
  obtain ⟨t', ht', hL, -, hr, -⟩ := C02_fnds_layers (b.f ++ a.bestF) (by rw [List.length_append]; omega) (dims_of (M := P.info.nobj) (by
    intro f hf'
    rcases List.mem_append.mp hf' with h | h
    · exact hf f h
    · exact hbf f h))
  rw [ht] at ht'
  cases ht'
  obtain ⟨fa, hfa, hia⟩ := (hr i ra hi').mp h1
  obtain ⟨fb, hfb, hjb⟩ := (hr j rb hj').mp h2
  obtain ⟨hra, rfl⟩ := List.getElem?_eq_some_iff.mp hfa
  match ra, hra, hia, hle with
  | 0, hra, hia, _ => exact ((hL.first hra i).mp hia).2 j ⟨hj', hi', hdom⟩
  | k + 1, hra, hia, hle =>
    obtain ⟨k', f, hk', hf', hjf⟩ := ((hL.layer k hra i).mp hia).2.1 j ⟨hj', hi', hdom⟩
    have e := (hr j k' hj').mpr ⟨f, hf', hjf⟩
    rw [h2] at e
    cases e
    omega

/-! ## Batch evaluation makes no difference -/

theorem run_foldlM_snoc {τ α β : Type} (f : β → α → Run τ β) (a : α) : ∀ (l : List α) (b : β),
    (l ++ [a]).foldlM f b = Run.bind (l.foldlM f b) (fun b' => f b' a) := by
  intro l
  induction l with
  | nil =>
    intro b
    funext s
    show Run.bind (f b a) _ s = Run.bind (pure b) _ s
    simp only [Run.bind, Pure.pure]
    rcases f b a s with ⟨_ | _ | _ | _, s1⟩ <;> rfl
  | cons c l ih =>
    intro b
    rw [List.cons_append, List.foldlM_cons, List.foldlM_cons]
    funext s
    show Run.bind (f b c) _ s = Run.bind (Run.bind (f b c) _) _ s
    unfold Run.bind
    rcases f b c s with ⟨_ | _ | _ | _, s1⟩
    · dsimp only; rw [ih]; rfl
    all_goals rfl

theorem bind_ok_iff {τ α β : Type} {m : Run τ α} {k : α → Run τ β} {s : τ} {b : β} {s' : τ} :
    Run.bind m k s = (.ok b, s') ↔ ∃ a s1, m s = (.ok a, s1) ∧ k a s1 = (.ok b, s') := by
  unfold Run.bind
  rcases m s with ⟨_ | _ | _ | _, s1⟩
  · simp
  all_goals simp

/-- Whenever one of the two ends well, from a state with `I`, the other one does the same. -/
def SameOk {τ α : Type} (I : τ → Prop) (m m' : Run τ α) : Prop := ∀ s a s', I s → (m s = (.ok a, s') ↔ m' s = (.ok a, s'))

/-- keeps `I` if it ends well, with a result that has `Q` -/
def Keeps {τ α : Type} (I : τ → Prop) (m : Run τ α) (Q : α → Prop) : Prop := ∀ s a s', I s → m s = (.ok a, s') → I s' ∧ Q a

theorem sameOk_refl {τ α : Type} {I : τ → Prop} (m : Run τ α) : SameOk I m m := fun _ _ _ _ => Iff.rfl

theorem sameOk_bind {τ α β : Type} {I : τ → Prop} {Q : α → Prop} {m m' : Run τ α} {k k' : α → Run τ β} (h : SameOk I m m') (hQ : Keeps I m Q)
    (hk : ∀ a, Q a → SameOk I (k a) (k' a)) : SameOk I (m >>= k) (m' >>= k') := by
  intro s b s' hi
  show Run.bind m k s = _ ↔ Run.bind m' k' s = _
  rw [bind_ok_iff, bind_ok_iff]
  constructor
  · rintro ⟨a, s1, h1, h2⟩
    obtain ⟨hi1, hq⟩ := hQ _ _ _ hi h1
    exact ⟨a, s1, (h _ _ _ hi).mp h1, (hk a hq _ _ _ hi1).mp h2⟩
  · rintro ⟨a, s1, h1, h2⟩
    have h1' := (h _ _ _ hi).mpr h1
    obtain ⟨hi1, hq⟩ := hQ _ _ _ hi h1'
    exact ⟨a, s1, h1', (hk a hq _ _ _ hi1).mpr h2⟩

theorem keeps_bind {τ α β : Type} {I : τ → Prop} {R : α → Prop} {Q : β → Prop} {m : Run τ α} {k : α → Run τ β} (h : Keeps I m R)
    (hk : ∀ a, R a → Keeps I (k a) Q) : Keeps I (m >>= k) Q := by
  intro s b s' hi e
  change Run.bind m k s = _ at e
  rw [bind_ok_iff] at e
  obtain ⟨a, s1, h1, h2⟩ := e
  obtain ⟨hi1, hr⟩ := h _ _ _ hi h1
  exact hk a hr _ _ _ hi1 h2

theorem keeps_pure {τ α : Type} {I : τ → Prop} {Q : α → Prop} {a : α} (h : Q a) : Keeps I (pure a : Run τ α) Q := by
  intro s b s' hi e
  cases e
  exact ⟨hi, h⟩

theorem keeps_lift {τ α : Type} {I : τ → Prop} (o : Outcome α) : Keeps I (Run.lift o : Run τ α) (fun _ => True) := by
  intro s a s' hi e
  rw [← (Prod.mk.inj e).2]
  exact ⟨hi, trivial⟩

theorem keeps_get {τ : Type} {I : τ → Prop} : Keeps I (Run.get : Run τ τ) I := by
  intro s a s' hi e
  cases e
  exact ⟨hi, hi⟩

theorem keeps_foldlM {τ α β : Type} {I : τ → Prop} {f : β → α → Run τ β} (hf : ∀ b a, Keeps I (f b a) (fun _ => True)) :
    ∀ (l : List α) (b : β), Keeps I (l.foldlM f b) (fun _ => True) := by
  intro l
  induction l with
  | nil => intro b; exact keeps_pure trivial
  | cons a l ih => intro b; rw [List.foldlM_cons]; exact keeps_bind (hf b a) (fun b' _ => ih b')

theorem keeps_onRng {α : Type} {I : St K σ → Prop} (hI : ∀ s e, I s → I { s with e := e }) (m : Run σ α) : Keeps I (onRng m) (fun _ => True) := by
  intro s a s' hi e
  unfold onRng at e
  rw [← (Prod.mk.inj e).2]
  exact ⟨hI _ _ hi, trivial⟩

/-- The result of the flight has the dimension of the problem. -/
theorem nspFly_length (v : MoEnv K σ) (P : AProb K) (A : Nspso K) (bestX : List (List (Fl K))) (L : List Nat) (fuel : Nat) (xs vel : List (List (Fl K))) (idx : Nat) :
    OnOk (nspFly v P A bestX L fuel xs vel idx) (fun r => r.1.length = P.info.nx) := by
  unfold nspFly
  refine onOk_bind (onOk_true _) fun _ _ => onOk_bind (onOk_true _) fun _ _ => onOk_bind (onOk_true _) fun _ _ => onOk_bind (onOk_true _) fun _ _ =>
    onOk_bind (onOk_true _) fun _ _ => onOk_bind (onOk_true _) fun _ _ => onOk_bind (onOk_true _) fun _ _ => onOk_bind (onOk_true _) fun _ _ => onOk_lift ?_
  have key : ∀ (l : List Nat) (r1 r2 : Fl K) (w b x lead : List (Fl K)) (acc r : List (Fl K) × List (Fl K)),
      l.foldlM (nspMoveAt v.op P A r1 r2 w b x lead) acc = .ok r → r.1.length = acc.1.length + l.length := by
    intro l r1 r2 w b x lead
    induction l with
    | nil => intro acc r h; cases h; rfl
    | cons d l ih =>
      intro acc r h
      rw [List.foldlM_cons] at h
      obtain ⟨acc', h1, h2⟩ := bind_ok_inv h
      rw [ih acc' r h2]
      unfold nspMoveAt at h1
      obtain ⟨_, _, h1⟩ := bind_ok_inv h1
      obtain ⟨_, _, h1⟩ := bind_ok_inv h1
      obtain ⟨_, _, h1⟩ := bind_ok_inv h1
      obtain ⟨_, _, h1⟩ := bind_ok_inv h1
      obtain ⟨_, _, h1⟩ := bind_ok_inv h1
      obtain ⟨_, _, h1⟩ := bind_ok_inv h1
      obtain ⟨_, _, h1⟩ := bind_ok_inv h1
      obtain ⟨_, _, h1⟩ := bind_ok_inv h1
      cases h1
      simp only [List.length_append, List.length_cons, List.length_nil]
      omega
  intro r hr
  rw [key _ _ _ _ _ _ _ _ _ hr]
  simp

theorem nspStore_inv {xs vel : List (List (Fl K))} {i : Nat} {m : List (Fl K) × List (Fl K)} {c : List (List (Fl K)) × List (List (Fl K))}
    (h : nspStore xs vel i m = .ok c) : i < xs.length ∧ c.1 = xs.set i m.1 := by
  unfold nspStore at h
  obtain ⟨x', h1, h⟩ := bind_ok_inv h
  obtain ⟨v', h2, h⟩ := bind_ok_inv h
  cases h
  unfold Outcome.set at h1
  split at h1
  · rename_i hi
    cases h1
    exact ⟨hi, rfl⟩
  · cases h1

/-- The first `k` particles: the loop with evaluation and the loop without. -/
theorem nspLoops (v : MoEnv K σ) {P : AProb K} (A : Nspso K) {b : Batch K} {F : List (Fl K) → List (Fl K)} (hF : BatchOf P b F)
    (bestX : List (List (Fl K))) (L : List Nat) (fuel : Nat) (xs vel fs : List (List (Fl K))) (s : St K σ) : ∀ (k : Nat), k ≤ fs.length →
    ∀ (c : List (List (Fl K)) × List (List (Fl K))),
      (∀ s1, (List.range k).foldlM (nspOne v P A bestX L fuel) (xs, vel) s = (.ok c, s1) → k ≤ c.1.length ∧ ∀ x ∈ c.1.take k, x.length = P.info.nx) ∧
      ∀ (fs' : List (List (Fl K))) (s' : St K σ),
      ((List.range k).foldlM (nspEvalOne v P A bestX L fuel) ((xs, vel), fs) s = (.ok (c, fs'), s') ↔
        ∃ s1, (List.range k).foldlM (nspOne v P A bestX L fuel) (xs, vel) s = (.ok c, s1) ∧ fs' = (c.1.take k).map F ++ fs.drop k ∧
          s' = { s1 with evs := s1.evs ++ (c.1.take k).map (fun x => (x, Except.ok (F x))) }) := by
  intro k
  induction k with
  | zero =>
    intro _ c
    refine ⟨fun s1 _ => ⟨by omega, by simp⟩, ?_⟩
    intro fs' s'
    show ((Outcome.ok ((xs, vel), fs), s) = _ ↔ ∃ s1, (Outcome.ok (xs, vel), s) = _ ∧ _)
    constructor
    · intro h; cases h; exact ⟨s, rfl, by simp, by simp⟩
    · rintro ⟨s1, h1, h2, h3⟩; cases h1; simp at h2 h3; rw [h2, h3]
  | succ k ih =>
    intro hk c
    have step : ∀ (c0 c : List (List (Fl K)) × List (List (Fl K))) (s1 s2 : St K σ), nspOne v P A bestX L fuel c0 k s1 = (.ok c, s2) ↔
        ∃ m, onRng (nspFly v P A bestX L fuel c0.1 c0.2 k) s1 = (.ok m, s2) ∧ nspStore c0.1 c0.2 k m = .ok c := by
      intro c0 c s1 s2
      unfold nspOne
      show Run.bind _ _ s1 = _ ↔ _
      rw [bind_ok_iff]
      constructor
      · rintro ⟨m, s3, h1, h2⟩
        have h4 : nspStore c0.1 c0.2 k m = .ok c := congrArg Prod.fst h2
        have h5 : s3 = s2 := congrArg Prod.snd h2
        subst h5
        exact ⟨m, h1, h4⟩
      · rintro ⟨m, h1, h2⟩
        exact ⟨m, s2, h1, by rw [h2]; rfl⟩
    have flen : ∀ (c0 : List (List (Fl K)) × List (List (Fl K))) (s1 s2 : St K σ) m, onRng (nspFly v P A bestX L fuel c0.1 c0.2 k) s1 = (.ok m, s2) → m.1.length = P.info.nx :=
      fun c0 s1 s2 m h => onOk_onRng (nspFly_length v P A bestX L fuel c0.1 c0.2 k) _ _ _ h
    have estep : ∀ (c0 c : List (List (Fl K)) × List (List (Fl K))) (f0 fs' : List (List (Fl K))) (s1 s' : St K σ) (E0 : List (ECall K)), k < f0.length →
        (nspEvalOne v P A bestX L fuel (c0, f0) k { s1 with evs := s1.evs ++ E0 } = (.ok (c, fs'), s') ↔
          ∃ m s3, onRng (nspFly v P A bestX L fuel c0.1 c0.2 k) s1 = (.ok m, s3) ∧ nspStore c0.1 c0.2 k m = .ok c ∧ fs' = f0.set k (F m.1) ∧
            s' = { s3 with evs := s3.evs ++ E0 ++ [(m.1, Except.ok (F m.1))] }) := by
      intro c0 c f0 fs' s1 s' E0 hk0
      have heval : ∀ (x : List (Fl K)) (s : St K σ), x.length = P.info.nx → eval P x s = (.ok (F x), { s with evs := s.evs ++ [(x, Except.ok (F x))] }) := by
        intro x s hx
        unfold eval
        simp [Pop.probFitness, hF.fit _ x hx, hF.dim x hx, hx]
      have hrng : ∀ (m : Run σ (List (Fl K) × List (Fl K))) r s4, onRng m { s1 with evs := s1.evs ++ E0 } = (.ok r, s4) ↔
          ∃ s3, onRng m s1 = (.ok r, s3) ∧ s4 = { s3 with evs := s3.evs ++ E0 } := by
        intro m r s4
        unfold onRng
        dsimp only
        constructor
        · intro h
          rw [Prod.mk.injEq] at h
          exact ⟨{ s1 with e := (m s1.e).2 }, by rw [h.1], h.2.symm⟩
        · rintro ⟨s3, h1, rfl⟩
          rw [Prod.mk.injEq] at h1
          obtain ⟨h1, rfl⟩ := h1
          rw [h1]
      unfold nspEvalOne
      show Run.bind _ _ _ = _ ↔ _
      rw [bind_ok_iff]
      constructor
      · rintro ⟨m, s4, h1, h2⟩
        obtain ⟨s3, h3, rfl⟩ := (hrng _ _ _).mp h1
        have hl := flen _ _ _ _ h3
        change Run.bind _ _ _ = _ at h2
        obtain ⟨c', s5, h4, h5⟩ := bind_ok_iff.mp h2
        have e1 : nspStore c0.1 c0.2 k m = .ok c' := congrArg Prod.fst h4
        have e2 : _ = s5 := congrArg Prod.snd h4
        change Run.bind _ _ _ = _ at h5
        obtain ⟨f, s6, h6, h7⟩ := bind_ok_iff.mp h5
        rw [← e2] at h6
        rw [heval _ _ hl, Prod.mk.injEq] at h6
        obtain ⟨e3, rfl⟩ := h6
        cases e3
        change Run.bind _ _ _ = _ at h7
        obtain ⟨f1, s7, h8, h9⟩ := bind_ok_iff.mp h7
        dsimp only at h8
        rw [Outcome.set_of_lt hk0] at h8
        cases h8
        cases h9
        exact ⟨m, s3, h3, e1, rfl, rfl⟩
      · rintro ⟨m, s3, h3, e1, rfl, rfl⟩
        have hl := flen _ _ _ _ h3
        refine ⟨m, _, (hrng _ _ _).mpr ⟨s3, h3, rfl⟩, ?_⟩
        change Run.bind _ _ _ = _
        refine bind_ok_iff.mpr ⟨c, { s3 with evs := s3.evs ++ E0 }, ?_, ?_⟩
        · dsimp only; rw [e1]; rfl
        change Run.bind _ _ _ = _
        refine bind_ok_iff.mpr ⟨_, _, heval _ _ hl, ?_⟩
        change Run.bind _ _ _ = _
        refine bind_ok_iff.mpr ⟨f0.set k (F m.1), { s3 with evs := s3.evs ++ E0 ++ [(m.1, Except.ok (F m.1))] }, ?_, rfl⟩
        dsimp only
        rw [Outcome.set_of_lt hk0]
        rfl
    have fset : ∀ (c0 : List (List (Fl K)) × List (List (Fl K))) (m : List (Fl K)), k < c0.1.length →
        ((c0.1.take k).map F ++ fs.drop k).set k (F m) = (((c0.1.set k m).take (k + 1)).map F) ++ fs.drop (k + 1) ∧
        (c0.1.take k).map (fun x => ((x, Except.ok (F x)) : ECall K)) ++ [(m, Except.ok (F m))] =
          ((c0.1.set k m).take (k + 1)).map (fun x => (x, Except.ok (F x))) := by
      intro c0 m hl
      have e : (c0.1.set k m).take (k + 1) = c0.1.take k ++ [m] := by
        rw [List.take_succ_eq_append_getElem (by rw [List.length_set]; exact hl), List.getElem_set_self, List.take_set_of_le le_rfl]
      have hlen : ((c0.1.take k).map F).length = k := by rw [List.length_map, List.length_take]; omega
      refine ⟨?_, by rw [e, List.map_append]; rfl⟩
      rw [e, List.map_append, List.set_append_right _ _ (by omega), hlen, Nat.sub_self, List.drop_eq_getElem_cons (by omega), List.set_cons_zero, List.append_assoc]
      rfl
    refine ⟨?_, ?_⟩
    · intro s1 h
      rw [List.range_succ, run_foldlM_snoc, bind_ok_iff] at h
      obtain ⟨c0, s0, h1, h2⟩ := h
      obtain ⟨g1, g2⟩ := (ih (by omega) c0).1 s0 h1
      obtain ⟨m, h3, h4⟩ := (step _ _ _ _).mp h2
      obtain ⟨h5, h6⟩ := nspStore_inv h4
      refine ⟨by rw [h6, List.length_set]; omega, ?_⟩
      rw [h6, List.take_succ_eq_append_getElem (by rw [List.length_set]; exact h5), List.getElem_set_self, List.take_set_of_le le_rfl]
      intro x hx
      rcases List.mem_append.mp hx with h | h
      · exact g2 x h
      · rw [List.mem_singleton.mp h]; exact flen _ _ _ _ h3
    · intro fs' s'
      rw [List.range_succ, run_foldlM_snoc, run_foldlM_snoc, bind_ok_iff]
      constructor
      · rintro ⟨⟨c0, f0⟩, s2, h1, h2⟩
        obtain ⟨s1, e1, e2, e3⟩ := ((ih (by omega) c0).2 f0 s2).mp h1
        obtain ⟨g1, g2⟩ := (ih (by omega) c0).1 s1 e1
        subst e2 e3
        have hl0 : ((c0.1.take k).map F ++ fs.drop k).length = fs.length := by
          rw [List.length_append, List.length_map, List.length_take, List.length_drop]; omega
        obtain ⟨m, s3, h3, h4, h5, h6⟩ := (estep _ _ _ _ _ _ _ (by omega)).mp h2
        obtain ⟨h7, h8⟩ := nspStore_inv h4
        obtain ⟨q1, q2⟩ := fset c0 m.1 h7
        refine ⟨s3, bind_ok_iff.mpr ⟨c0, s1, e1, (step _ _ _ _).mpr ⟨m, h3, h4⟩⟩, ?_, ?_⟩
        · rw [h5, h8, q1]
        · rw [h6, h8, ← q2, List.append_assoc]
      · rintro ⟨s3, h1, h2, h3⟩
        obtain ⟨c0, s1, e1, e2⟩ := bind_ok_iff.mp h1
        obtain ⟨g1, g2⟩ := (ih (by omega) c0).1 s1 e1
        obtain ⟨m, h4, h5⟩ := (step _ _ _ _).mp e2
        obtain ⟨h7, h8⟩ := nspStore_inv h5
        obtain ⟨q1, q2⟩ := fset c0 m.1 h7
        have hl0 : ((c0.1.take k).map F ++ fs.drop k).length = fs.length := by
          rw [List.length_append, List.length_map, List.length_take, List.length_drop]; omega
        refine ⟨(c0, (c0.1.take k).map F ++ fs.drop k), _, ((ih (by omega) c0).2 _ _).mpr ⟨s1, e1, rfl, rfl⟩, ?_⟩
        refine (estep _ _ _ _ _ _ _ (by omega)).mpr ⟨m, s3, h4, h5, ?_, ?_⟩
        · rw [h2, h8, q1]
        · rw [h3, h8, ← q2, List.append_assoc]

/-- Without the batch evaluator the same, for a population of `n`. -/
theorem nspMoveAll_batch (v : MoEnv K σ) {P : AProb K} (A : Nspso K) {b : Batch K} {F : List (Fl K) → List (Fl K)} (hF : BatchOf P b F)
    (hnx : 0 < P.info.nx) (hnf : 0 < P.info.nf) (hnc : P.info.nc = 0) (bestX : List (List (Fl K))) (L : List Nat) (n fuel : Nat)
    (xs vel fs : List (List (Fl K))) (hx : xs.length = n) (hf : fs.length = n) (s s' : St K σ)
    (r : (List (List (Fl K)) × List (List (Fl K))) × List (List (Fl K))) :
    nspMoveAll v P A (some b) bestX L n fuel xs vel fs s = (.ok r, s') ↔ nspMoveAll v P A none bestX L n fuel xs vel fs s = (.ok r, s') := by
  obtain ⟨c, fs'⟩ := r
  obtain ⟨h1, h2⟩ := nspLoops v A hF bestX L fuel xs vel fs s n (by omega) c
  have hlen : ∀ (l : List Nat) (c0 c : List (List (Fl K)) × List (List (Fl K))) (s s1 : St K σ), l.foldlM (nspOne v P A bestX L fuel) c0 s = (.ok c, s1) →
      c.1.length = c0.1.length := by
    intro l
    induction l with
    | nil => intro c0 c s s1 h; cases h; rfl
    | cons a l ih =>
      intro c0 c s s1 h
      rw [List.foldlM_cons] at h
      change Run.bind _ _ _ = _ at h
      obtain ⟨c1, s2, e1, e2⟩ := bind_ok_iff.mp h
      rw [ih _ _ _ _ e2]
      unfold nspOne at e1
      change Run.bind _ _ _ = _ at e1
      obtain ⟨m, s3, _, e3⟩ := bind_ok_iff.mp e1
      rw [(nspStore_inv (congrArg Prod.fst e3)).2, List.length_set]
  have hseq : ∀ (ys : List (List (Fl K))) (s : St K σ), (∀ x ∈ ys, x.length = P.info.nx) →
      evalBatch P b ys s = (.ok (ys.map F), { s with evs := s.evs ++ ys.map (fun x => (x, Except.ok (F x))) }) := by
    intro ys s hy
    exact evalBatch_of hF hnx hnf hnc hy s
  unfold nspMoveAll
  dsimp only
  rw [h2 fs' s']
  change Run.bind _ _ _ = _ ↔ _
  rw [bind_ok_iff]
  constructor
  · rintro ⟨c1, s1, e1, e2⟩
    change Run.bind _ _ _ = _ at e2
    obtain ⟨f1, s2, e3, e4⟩ := bind_ok_iff.mp e2
    cases e4
    obtain ⟨g1, g2⟩ := h1 s1 e1
    have hl := hlen _ _ _ _ _ e1
    have ht : c.1.take n = c.1 := List.take_of_length_le (by rw [hl]; exact hx.le)
    rw [ht] at g2
    rw [hseq _ _ g2] at e3
    cases e3
    refine ⟨s1, e1, ?_, ?_⟩
    · rw [ht, List.drop_of_length_le (by omega), List.append_nil]
    · rw [ht]
  · rintro ⟨s1, e1, e2, e3⟩
    obtain ⟨g1, g2⟩ := h1 s1 e1
    have hl := hlen _ _ _ _ _ e1
    have ht : c.1.take n = c.1 := List.take_of_length_le (by rw [hl]; exact hx.le)
    rw [ht] at g2 e2 e3
    rw [List.drop_of_length_le (by omega), List.append_nil] at e2
    refine ⟨c, s1, e1, ?_⟩
    change Run.bind _ _ _ = _
    exact bind_ok_iff.mpr ⟨_, _, hseq _ _ g2, by rw [e2, e3]; rfl⟩

theorem genLoop_same {β : Type} {I : St K σ → Prop} {body body' : Nat → β → Run (St K σ) (β × Bool)} (h : ∀ g b, SameOk I (body g b) (body' g b))
    (hk : ∀ g b, Keeps I (body g b) (fun _ => True)) (gens : Nat) : ∀ (fuel g : Nat) (b : β), SameOk I (genLoop body gens fuel g b) (genLoop body' gens fuel g b) := by
  intro fuel
  induction fuel with
  | zero => intro g b; exact sameOk_refl _
  | succ n ih =>
    intro g b
    rw [genLoop, genLoop]
    split
    · refine sameOk_bind (h g b) (hk g b) fun r _ => ?_
      split
      · exact sameOk_refl _
      · exact ih _ _
    · exact sameOk_refl _

/-- C103 (batch evaluation). If the fitness is a function of the point and the batch evaluator computes this function for each
point, then a run with the batch evaluator that ends without an exception does exactly the same as a run without: same
population, same memory, same random engine, same evaluations in the same order; and the other way round. -/
theorem C103_batch [IsStrictOrderedRing K] (v : MoEnv K σ) (P : AProb K) (A : Nspso K) (b : Batch K) (F : List (Fl K) → List (Fl K)) (hF : BatchOf P b F)
    (hnx : 0 < P.info.nx) (hnobj : 0 < P.info.nobj) (hnc : P.info.nc = 0) (fuel : Nat) (m m' : NspMem K) (s s' : St K σ) (hi : Inv P.info s.pop) :
    nspEvolve v P A (some b) fuel m s = (.ok m', s') ↔ nspEvolve v P A none fuel m s = (.ok m', s') := by
  have hnf : 0 < P.info.nf := by unfold Info.nf; omega
  let I : St K σ → Prop := fun s1 => Inv P.info s1.pop ∧ s1.pop.id.length = s.pop.id.length
  have copy : ∀ (xs fs : List (List (Fl K))) (u : Unit) (i : Nat), Keeps I (nspCopy v P xs fs u i) (fun _ => True) := by
    intro xs fs u i
    unfold nspCopy
    refine keeps_bind (keeps_lift _) fun x _ => keeps_bind (keeps_lift _) fun f _ => ?_
    intro s1 a s2 hI e
    have key := op_run (sq := v.sq) hnx hnobj hI.1 (.setXF i x f)
    change wp (Pop.setXF v.sq P.info i x f) _ _ _ at key
    unfold onPop at e
    unfold wp at key
    rcases hr : Pop.setXF v.sq P.info i x f s1.pop with ⟨o, p⟩
    rw [hr] at key e
    obtain ⟨e1, rfl⟩ := Prod.mk.inj e
    dsimp only at e1
    subst e1
    obtain ⟨k1, k2, -⟩ := key
    exact ⟨⟨k1, (congrArg List.length k2.2.1).trans hI.2⟩, trivial⟩
  have move : ∀ (bestX : List (List (Fl K))) (L : List Nat) (xs vel fs : List (List (Fl K))),
      Keeps I (nspMoveAll v P A none bestX L s.pop.id.length fuel xs vel fs) (fun _ => True) := by
    intro bestX L xs vel fs
    have hrng : ∀ (s : St K σ) e, I s → I { s with e := e } := fun _ _ h => h
    unfold nspMoveAll
    refine keeps_foldlM (fun c i => ?_) _ _
    unfold nspEvalOne
    refine keeps_bind (keeps_onRng hrng _) fun _ _ => keeps_bind (keeps_lift _) fun _ _ => keeps_bind (R := fun _ => True) ?_ fun _ _ => keeps_bind (keeps_lift _) fun _ _ => keeps_pure trivial
    intro s1 a s2 hI e
    unfold eval at e
    rw [← (Prod.mk.inj e).2]
    split <;> exact ⟨hI, trivial⟩
  have gen : ∀ g c, Keeps I (nspGen v P A none s.pop.id.length fuel g c) (fun _ => True) := by
    intro g c
    unfold nspGen
    exact keeps_bind keeps_get fun _ _ => keeps_bind (keeps_lift _) fun _ _ => keeps_bind (move _ _ _ _ _) fun _ _ => keeps_bind (keeps_lift _) fun _ _ =>
      keeps_bind (keeps_foldlM (copy _ _) _ _) fun _ _ => keeps_pure trivial
  have same : ∀ g c, SameOk I (nspGen v P A none s.pop.id.length fuel g c) (nspGen v P A (some b) s.pop.id.length fuel g c) := by
    intro g c
    unfold nspGen
    refine sameOk_bind (sameOk_refl _) keeps_get fun s1 h1 => sameOk_bind (sameOk_refl _) (keeps_lift _) fun L _ => sameOk_bind ?_ (move _ _ _ _ _) fun _ _ => sameOk_refl _
    intro s2 r s3 _
    exact (nspMoveAll_batch v A hF hnx hnf hnc _ _ _ _ _ _ _ (h1.1.wf.xs.trans h1.2) (h1.1.wf.fs.trans h1.2) _ _ _).symm
  have key : SameOk I (nspEvolve v P A none fuel m) (nspEvolve v P A (some b) fuel m) := by
    unfold nspEvolve
    refine sameOk_bind (sameOk_refl _) keeps_get fun s1 h1 => ?_
    rw [h1.2]
    split
    · exact sameOk_refl _
    split
    · exact sameOk_refl _
    split
    · exact sameOk_refl _
    split
    · exact sameOk_refl _
    split
    · exact sameOk_refl _
    · exact sameOk_bind (sameOk_refl _) (keeps_onRng (fun _ _ h => h) _) fun V _ => genLoop_same same gen _ _ _ _
  exact (key s m' s' ⟨hi, rfl⟩).symm

/-! ## Examples and counterexamples -/

/-- the default parameters, with `gens`, the range, the mechanism and the memory -/
def nspDemo (gens range : Nat) (mech : String) (memory : Bool) : Nspso ℚ :=
  ⟨gens, .fin (6 / 10), .fin 2, .fin 2, .fin 1, .fin (1 / 2), range, mech, memory⟩

theorem nspDemo_ok {gens range : Nat} {mech : String} {memory : Bool} (h : range ≤ 100) (hm : mech = "crowding distance" ∨ mech = "niche count" ∨ mech = "max min") :
    nspCtor gens (.fin (6 / 10)) (.fin 2) (.fin 2) (.fin 1) (.fin (1 / 2)) range mech memory = .ok (nspDemo gens range mech memory) :=
  (C101_ctor gens (6 / 10 : ℚ) 2 2 1 (1 / 2) range mech memory).1 ⟨by norm_num, by norm_num, by norm_num, by norm_num, by norm_num, by norm_num, by norm_num, h, hm⟩

example : nspCtor 1 (.fin (6 / 10 : ℚ)) (.fin 2) (.fin 0) (.fin 1) (.fin (1 / 2)) 2 "max min" false = .throws .invalidArgument :=
  (C101_ctor 1 (6 / 10 : ℚ) 2 0 1 (1 / 2) 2 "max min" false).2 (by norm_num)

theorem nspDemoOps : PsoOps moDemoEnv.toEnv := psoDemoOps

theorem moDemo_finiteBox : FiniteBox moDemo where
  bounds := moDemo_sane
  nx := rfl
  finL := by intro x hx; simp only [moDemo, List.mem_cons, List.not_mem_nil, or_false] at hx; rcases hx with rfl | rfl <;> exact ⟨_, rfl⟩
  finU := by intro x hx; simp only [moDemo, List.mem_cons, List.not_mem_nil, or_false] at hx; rcases hx with rfl | rfl <;> exact ⟨_, rfl⟩

/-- eight individuals -/
def nspDemoSt : St ℚ (List ℚ) := { moDemoSt with e :=
  [1 / 2, 1 / 4, 3 / 4, 1 / 3, 1 / 5, 1 / 2, 1, 1 / 4, 1 / 8, 1 / 2, 0, 1, 1 / 3, 2 / 5, 3 / 7, 1 / 9, 9 / 10, 1 / 10, 0, 0, 1, 0, 1, 0, 1, 0, 1, 0, 1 / 2, 0,
    1 / 2, 0, 1, 0, 1 / 2, 1, 1 / 4, 1, 0, 1, 1 / 3, 1 / 2, 1] }

theorem nspDemo_fin : ∀ x ∈ nspDemoSt.pop.x, AllFin x := by
  intro x hx
  simp only [nspDemoSt, moDemoSt, List.mem_cons, List.not_mem_nil, or_false] at hx
  rcases hx with rfl | rfl | rfl | rfl | rfl | rfl | rfl | rfl <;>
    (intro a ha; simp only [List.mem_cons, List.not_mem_nil, or_false] at ha; rcases ha with rfl | rfl <;> exact ⟨_, rfl⟩)

theorem nspDemo_runs (mech : String) (hm : mech = "crowding distance" ∨ mech = "niche count" ∨ mech = "max min") (bfe : Option (Batch ℚ))
    (hb : ∀ b, bfe = some b → b = moBatch) :
    wpn (SameDraws moDemoEnv.g 30) (nspEvolve moDemoEnv moDemo (nspDemo 1 60 mech false) bfe 30 ⟨[], [], []⟩)
      (fun m' s' => NspDone moDemoEnv moDemo (nspDemo 1 60 mech false) ⟨[], [], []⟩ nspDemoSt m' s')
      (MgFailed (InBox moDemo.lb moDemo.ub 0) moDemo bfe nspDemoSt) nspDemoSt :=
  C101_evolve_partial moDemoEnv _ demoGen_lawful insSort_valid nspDemoOps moDemo moDemo_finiteBox le_rfl rfl rfl 1 _ _ _ _ _ 60 mech false _
    (nspDemo_ok (by decide) hm) Nat.one_pos (by simp [nspDemo]) bfe (fun b h => hb b h ▸ moBatch_ok) nspDemoSt moDemo_inv (by decide) (by decide) nspDemo_fin _
    ⟨(fun h => by cases h), (fun h => by cases h)⟩ 30 (by simp [nspDemo])

example : ∀ mech ∈ ["crowding distance", "niche count", "max min"], ∀ b ∈ [none, some moBatch],
    (nspEvolve moDemoEnv moDemo (nspDemo 1 60 mech false) b 30 ⟨[], [], []⟩ nspDemoSt).2.evs.length = 8 ∧
    (nspEvolve moDemoEnv moDemo (nspDemo 1 60 mech false) b 30 ⟨[], [], []⟩ nspDemoSt).2.pop.x ≠ nspDemoSt.pop.x := by
  decide +kernel

/-- batch and no batch -/
example (m' : NspMem ℚ) (s' : St ℚ (List ℚ)) :
    nspEvolve moDemoEnv moDemo (nspDemo 1 60 "max min" false) (some moBatch) 30 ⟨[], [], []⟩ nspDemoSt = (.ok m', s') ↔
    nspEvolve moDemoEnv moDemo (nspDemo 1 60 "max min" false) none 30 ⟨[], [], []⟩ nspDemoSt = (.ok m', s') :=
  C103_batch moDemoEnv moDemo _ moBatch _ moBatch_of (by decide) (by decide) rfl 30 _ _ _ _ moDemo_inv

example : nspEvolve moDemoEnv moDemo { nspDemo 1 60 "max min" false with gens := 0 } none 30 ⟨[], [], []⟩ nspDemoSt = (.ok ⟨[], [], []⟩, nspDemoSt) :=
  C101_no_generations _ _ _ rfl _ _ _ _ rfl rfl (by decide) (by decide)

example : nspEvolve moDemoEnv { moDemo with info := { moDemo.info with stochastic := true } } (nspDemo 1 60 "max min" false) none 30 ⟨[], [], []⟩ nspDemoSt =
    (.throws .invalidArgument, nspDemoSt) := C101_throws _ _ _ _ _ _ _ (Or.inl rfl)

/-- The maxmin values of three points. -/
example : IsMaxmin (Fl.exact ℚ) [[.fin 0, .fin 3], [.fin 1, .fin 1], [.fin 2, .fin 1]] 2 1 (.fin (-1)) ∧
    IsMaxmin (Fl.exact ℚ) [[.fin 0, .fin 3], [.fin 1, .fin 1], [.fin 2, .fin 1]] 2 2 (.fin 0) := by
  constructor
  · refine ⟨⟨2, by decide, by decide, ?_⟩, ?_⟩
    · intro k hk; interval_cases k <;> decide +kernel
    · intro j hj hne
      simp only [List.length_cons, List.length_nil] at hj
      have : j = 0 ∨ j = 2 := by omega
      rcases this with rfl | rfl
      · exact ⟨1, by decide, by decide +kernel⟩
      · exact ⟨0, by decide, by decide +kernel⟩
  · refine ⟨⟨1, by decide, by decide, ?_⟩, ?_⟩
    · intro k hk; interval_cases k <;> decide +kernel
    · intro j hj hne
      simp only [List.length_cons, List.length_nil] at hj
      have : j = 0 ∨ j = 1 := by omega
      rcases this with rfl | rfl
      · exact ⟨1, by decide, by decide +kernel⟩
      · exact ⟨1, by decide, by decide +kernel⟩

/-- one variable, two objectives that agree -/
def nspTwin : AProb ℚ := ⟨⟨1, 2, 0, 0, false⟩, [.fin 0], [.fin 4], 0, fun _ x => .ok [x.headD .nan, x.headD .nan]⟩

def nspTwinSt : St ℚ (List ℚ) :=
  ⟨⟨[1, 2], [[.fin 1], [.fin 2]], [[.fin 1, .fin 1], [.fin 2, .fin 2]], [], [], [], fun n => n, []⟩, [3 / 4, 1 / 2, 1, 0, 1 / 4, 0, 0, 1 / 8], []⟩

/-- what the object remembers after this run -/
def nspTwinMem : NspMem ℚ := ⟨[[.fin (11 / 10)], [.fin (-1 / 4)]], [[.fin 1, .fin 1], [.fin (7 / 4), .fin (7 / 4)]], [[.fin 1], [.fin (7 / 4)]]⟩

theorem nspTwin_result : (nspEvolve moDemoEnv nspTwin (nspDemo 1 60 "crowding distance" false) none 30 ⟨[], [], []⟩ nspTwinSt).1 = .ok nspTwinMem ∧
    (nspEvolve moDemoEnv nspTwin (nspDemo 1 60 "crowding distance" false) none 30 ⟨[], [], []⟩ nspTwinSt).2.pop.x = [[.fin (21 / 10)], [.fin (7 / 4)]] ∧
    (nspEvolve moDemoEnv nspTwin (nspDemo 1 60 "crowding distance" false) none 30 ⟨[], [], []⟩ nspTwinSt).2.pop.f =
      [[.fin (21 / 10), .fin (21 / 10)], [.fin (7 / 4), .fin (7 / 4)]] :=
  ⟨by decide +kernel, by decide +kernel, by decide +kernel⟩

theorem nspTwin_finiteBox : FiniteBox nspTwin where
  bounds := ⟨by simp [nspTwin], rfl, (by
    intro i l u hl hu
    match i with
    | 0 => cases hl; cases hu; exact ⟨by simp, by simp, by simp⟩
    | i + 1 => cases hl), by simp [nspTwin], (by
    intro i a hi ha
    match i with
    | 0 => simp [nspTwin] at hi
    | i + 1 => cases ha), (by
    intro i a hi ha
    match i with
    | 0 => simp [nspTwin] at hi
    | i + 1 => cases ha)⟩
  nx := rfl
  finL := by intro x hx; rw [List.mem_singleton.mp hx]; exact ⟨_, rfl⟩
  finU := by intro x hx; rw [List.mem_singleton.mp hx]; exact ⟨_, rfl⟩

/-- The one generation of this run. -/
theorem nspTwin_generation : ∃ V0, NspGeneration moDemoEnv nspTwin (nspDemo 1 60 "crowding distance" false) 2
    ⟨nspTwinSt.pop.x, nspTwinSt.pop.f, V0, nspTwinSt.pop.x, nspTwinSt.pop.f, []⟩
    (nspSwarm nspTwinMem (nspEvolve moDemoEnv nspTwin (nspDemo 1 60 "crowding distance" false) none 30 ⟨[], [], []⟩ nspTwinSt).2) := by
  have h := C101_evolve_partial moDemoEnv _ demoGen_lawful insSort_valid nspDemoOps nspTwin nspTwin_finiteBox le_rfl rfl rfl 1 _ _ _ _ _ 60 "crowding distance" false _
    (nspDemo_ok (by decide) (Or.inl rfl)) Nat.one_pos (by simp [nspDemo]) none (fun b h => by cases h) nspTwinSt
    ⟨⟨rfl, rfl, by decide +kernel, by decide +kernel⟩, Or.inl ⟨rfl, rfl⟩, rfl⟩ (by decide) (by decide)
    (by
      intro x hx
      simp only [nspTwinSt, List.mem_cons, List.not_mem_nil, or_false] at hx
      rcases hx with rfl | rfl <;> (intro a ha; rw [List.mem_singleton.mp ha]; exact ⟨_, rfl⟩)) ⟨[], [], []⟩
    ⟨(fun h => by cases h), (fun h => by cases h)⟩ 30 (by simp [nspDemo])
  have ho := nspTwin_result.1
  unfold wpn at h
  rcases hr : nspEvolve moDemoEnv nspTwin (nspDemo 1 60 "crowding distance" false) none 30 ⟨[], [], []⟩ nspTwinSt with ⟨o, s'⟩
  rw [hr] at h ho
  dsimp only at ho
  subst ho
  obtain ⟨V0, bx, bf, -, -, -, h4, h5⟩ := h.run
  obtain ⟨rfl, rfl⟩ := h4 (Or.inl rfl)
  cases h5 with
  | snoc h1 h2 =>
    cases h1
    exact ⟨V0, h2⟩

/-- the hypotheses of `C102_leader_partial` -/
example : ∃ (V0 : List (List (Fl ℚ))) (q : Nat), q ≠ 1 ∧ q < 2 ∧ NspMoved moDemoEnv.op nspTwin (nspDemo 1 60 "crowding distance" false) (V0.getD 1 []) [.fin 2] [.fin 2]
    (nspTwinSt.pop.x.getD q []) [.fin (7 / 4)] [.fin (-1 / 4)] := by
  obtain ⟨V0, h⟩ := nspTwin_generation
  obtain ⟨q, h1, h2, -, h3⟩ := C102_leader_partial _ _ _ _ _ _ h rfl (by decide) 1 (by decide)
  refine ⟨V0, q, h1, h2, ?_⟩
  unfold nspSwarm at h3
  dsimp only at h3
  rw [nspTwin_result.2.1] at h3
  exact h3

/-- the hypotheses of `C104_kept_partial` -/
example : ∃ sel : List Nat, sel.length = 2 ∧ sel.Nodup := by
  obtain ⟨V0, h⟩ := nspTwin_generation
  obtain ⟨sel, h1, h2, -⟩ := C104_kept_partial _ _ _ (by decide) 2 _ _ (by decide) (by
    intro f hf
    unfold nspSwarm at hf
    dsimp only at hf
    rw [nspTwin_result.2.2] at hf
    simp only [List.mem_cons, List.not_mem_nil, or_false] at hf
    rcases hf with rfl | rfl <;> rfl) (by
    intro f hf
    simp only [nspTwinSt, List.mem_cons, List.not_mem_nil, or_false] at hf
    rcases hf with rfl | rfl <;> rfl) rfl h
  exact ⟨sel, h1, h2⟩

/-- C104 is false of the population: the individual `[1]` of the population given dominates both individuals of the
population returned. -/
theorem C104_false : [Fl.fin 1, .fin 1] ∈ nspTwinSt.pop.f ∧
    (nspEvolve moDemoEnv nspTwin (nspDemo 1 60 "crowding distance" false) none 30 ⟨[], [], []⟩ nspTwinSt).1 = .ok nspTwinMem ∧
    ∀ f ∈ (nspEvolve moDemoEnv nspTwin (nspDemo 1 60 "crowding distance" false) none 30 ⟨[], [], []⟩ nspTwinSt).2.pop.f, Dominates [Fl.fin 1, .fin 1] f := by
  refine ⟨by simp [nspTwinSt], nspTwin_result.1, ?_⟩
  rw [nspTwin_result.2.2]
  intro f hf
  have dom : ∀ a : ℚ, 1 < a → Dominates [Fl.fin 1, .fin 1] [.fin a, .fin a] := by
    intro a ha
    refine ⟨rfl, ?_, 0, by simp, by simp, by simpa using ha⟩
    intro i h1 h2
    match i with
    | 0 => simpa using ha.le
    | 1 => simpa using ha.le
    | i + 2 => simp at h1
  simp only [List.mem_cons, List.not_mem_nil, or_false] at hf
  rcases hf with rfl | rfl
  · exact dom _ (by norm_num)
  · exact dom _ (by norm_num)

/-- C102 is false from the second generation on, for the leader: after this run the first particle is led, in whatever next
generation, to the second of the best points, which the first of the best points dominates. -/
theorem C102_leader_false : DomIdx nspTwinMem.bestF 0 1 ∧
    (nspEvolve moDemoEnv nspTwin (nspDemo 1 60 "crowding distance" false) none 30 ⟨[], [], []⟩ nspTwinSt).1 = .ok nspTwinMem ∧
    ∀ b : NspSwarm ℚ, NspGeneration moDemoEnv nspTwin (nspDemo 1 60 "crowding distance" false) 2
      (nspSwarm nspTwinMem (nspEvolve moDemoEnv nspTwin (nspDemo 1 60 "crowding distance" false) none 30 ⟨[], [], []⟩ nspTwinSt).2) b →
      NspMoved moDemoEnv.op nspTwin (nspDemo 1 60 "crowding distance" false) [.fin (11 / 10)] [.fin 1] [.fin (21 / 10)] [.fin (7 / 4)] (b.x.getD 0 []) (b.vel.getD 0 []) := by
  refine ⟨⟨by decide, by decide, ?_⟩, nspTwin_result.1, ?_⟩
  · refine ⟨rfl, ?_, 0, by decide, by decide, by decide +kernel⟩
    intro i h1 h2
    match i with
    | 0 => exact Fl.fin_le_fin.mpr (by norm_num)
    | 1 => exact Fl.fin_le_fin.mpr (by norm_num)
    | i + 2 => simp [nspTwinMem] at h1
  · rintro b ⟨⟨L, hL, hall⟩, -⟩
    obtain ⟨q, ⟨hq, k, hk, -⟩, hm⟩ := hall 0 (by decide)
    have hlt := hL.lt q (List.mem_of_getElem? hk)
    unfold nspSwarm at hlt hm
    dsimp only at hlt hm
    rw [nspTwin_result.2.2] at hlt
    rw [nspTwin_result.2.1] at hm
    have : q = 1 := by simp at hlt; omega
    subst this
    exact hm

/-- C102 is false from the second generation on, for the own best point: after one generation of the example with eight
individuals, the best point with the number of the first particle, which will attract it, is neither of the two points where this
particle has been. -/
theorem C102_own_false : ∃ m' : NspMem ℚ,
    (nspEvolve moDemoEnv moDemo (nspDemo 1 60 "crowding distance" false) none 30 ⟨[], [], []⟩ nspDemoSt).1 = .ok m' ∧
    m'.bestX[0]? = some [.fin 4, .fin 1] ∧ nspDemoSt.pop.x[0]? = some [.fin 0, .fin 1] ∧
    (nspEvolve moDemoEnv moDemo (nspDemo 1 60 "crowding distance" false) none 30 ⟨[], [], []⟩ nspDemoSt).2.pop.x[0]? = some [.fin 0, .fin (11 / 20)] := by
  have h : ((nspEvolve moDemoEnv moDemo (nspDemo 1 60 "crowding distance" false) none 30 ⟨[], [], []⟩ nspDemoSt).1.bind
    (fun m' => .ok (m'.bestX[0]?))) = .ok (some [.fin 4, .fin 1]) := by decide +kernel
  rcases hr : (nspEvolve moDemoEnv moDemo (nspDemo 1 60 "crowding distance" false) none 30 ⟨[], [], []⟩ nspDemoSt).1 with m' | e | _ | _
  · rw [hr] at h
    exact ⟨m', rfl, Outcome.ok.inj h, by decide +kernel, by decide +kernel⟩
  all_goals (rw [hr] at h; cases h)

/-- two variables -/
def nspPair : AProb ℚ := ⟨⟨2, 2, 0, 0, false⟩, [.fin 0, .fin 0], [.fin 4, .fin 4], 0, fun _ x => .ok [x.headD .nan, x.headD .nan]⟩

def nspPairSt : St ℚ (List ℚ) :=
  ⟨⟨[1, 2], [[.fin 1, .fin 1], [.fin 2, .fin 2]], [[.fin 1, .fin 1], [.fin 2, .fin 2]], [], [], [], fun n => n, []⟩, [1, 0, 1 / 4, 0, 0, 1 / 8], []⟩

/-- C101 is false for a memory of a problem with fewer variables: a component that is not there is read. -/
theorem C101_memory :
    (nspEvolve moDemoEnv nspTwin (nspDemo 1 60 "crowding distance" true) none 30 ⟨[], [], []⟩ nspTwinSt).1 = .ok nspTwinMem ∧
    (nspEvolve moDemoEnv nspPair (nspDemo 1 60 "crowding distance" true) none 30 nspTwinMem nspPairSt).1 = .ub :=
  ⟨by decide +kernel, by decide +kernel⟩

/-- C101 is false for the parameter NaN, which the constructor takes: a point outside the bounds (NaN) is evaluated. -/
theorem C101_nan :
    (∃ (A : Nspso ℚ) (r : User (List (Fl ℚ))), nspCtor 1 .nan (.fin 2) (.fin 2) (.fin 1) (.fin (1 / 2)) 60 "crowding distance" false = .ok A ∧
      (nspEvolve moDemoEnv nspTwin A none 30 ⟨[], [], []⟩ nspTwinSt).2.evs[0]? = some ([Fl.nan], r)) ∧
    ¬ InBox nspTwin.lb nspTwin.ub 0 [Fl.nan] := by
  refine ⟨⟨{ nspDemo 1 60 "crowding distance" false with omega := .nan }, .ok [.nan, .nan], by decide +kernel, by decide +kernel⟩, ?_⟩
  rintro ⟨_, h⟩
  have := (h 0 (.fin 0) (.fin 4) .nan rfl rfl rfl).2.1
  simp [Fl.le_def, Fl.cls] at this

end Verif.Props
