import Verif.Proof.Annealing

/-!
# C67: simulated annealing
-/

set_option autoImplicit false

namespace Verif.Props

open Verif Run Prob Pop Alg

variable {K σ : Type} [Field K] [LinearOrder K]

/-- What `simulated_annealing::evolve` did: it evaluated `new`, exactly `n_T_adj * n_range_adj * bin_size * nx` points, all
inside the bounds. If the objective of the selected individual is NaN nothing else happened; otherwise an individual was
replaced by `(x, b)`, the selected individual or an evaluated point, not worse than the selected individual and than any
evaluated point. -/
def Annealed (P : AProb K) (A : Sa K) (s s' : St K σ) : Prop :=
  ∃ new, s'.evs = s.evs ++ new ∧ (∀ p ∈ new, InBox P.lb P.ub 0 p.1) ∧ new.length = A.nT * A.nR * A.bin * P.info.nx ∧
    ∃ (i : Nat) (x0 : List (Fl K)) (a0 : Fl K), Picked Lower s.pop A.select i ∧ s.pop.x[i]? = some x0 ∧ s.pop.f[i]? = some [a0] ∧
      (a0 = .nan ∧ s'.pop = s.pop ∨
        a0 ≠ .nan ∧ ∃ (j : Nat) (x : List (Fl K)) (b : Fl K), Picked Lower s.pop A.replace j ∧
          ((x, b) = (x0, a0) ∨ (x, Except.ok [b]) ∈ new) ∧ b ≤ a0 ∧
          (∀ (y : List (Fl K)) (f : Fl K), (y, Except.ok [f]) ∈ new → b ≤ f) ∧
          s'.pop.id = s.pop.id ∧ s'.pop.x = s.pop.x.set j x ∧ s'.pop.f = s.pop.f.set j [b])

section
variable [IsStrictOrderedRing K]

/-- C67. Whatever the problem's fitness function, the random engine and the arithmetic do: every evaluated point lies
inside the bounds, and `Annealed` describes the result. The only exceptions are those of the user's code, a failed
allocation, a policy index that is too large, and (only if the arithmetic overflows or the bounds are not finite)
`std::invalid_argument` from `uniform_real_from_range`. -/
theorem C67_anneal (v : SaEnv K σ) (rep : K → Prop) (hg : v.g.Lawful rep) (hn : SaNan v) (P : AProb K)
    (hP : SaneBounds P.lb P.ub P.nix) (hnx : P.info.nx = P.lb.length) (hsz : P.info.nx < 2 ^ 64)
    (hnobj : P.info.nobj = 1) (hnc : P.info.nc = 0) (hst : P.info.stochastic = false) (A : Sa K) (hbin : A.bin < 2 ^ 31)
    (s : St K σ) (hi : Inv P.info s.pop) (hne : s.pop.id ≠ []) (hps : s.pop.id.length ≤ 2 ^ 64 - 1)
    (hr : ∀ pol, pol = A.select ∨ pol = A.replace → pol = .best ∨ pol = .worst → Ranked v.toEnv P Lower s.pop)
    (hbox : ∀ x ∈ s.pop.x, InBox P.lb P.ub 0 x) :
    wp (saEvolve v P A) (fun _ s' => Annealed P A s s') (SaFailed (SaNum v P A) P A s) s := by
  have hnf : P.info.nf = 1 := by simp only [Info.nf, Info.nc] at *; omega
  have hnx0 : 0 < P.info.nx := by rw [hnx]; exact List.length_pos_iff.mpr hP.nonempty
  unfold saEvolve
  rw [if_neg (by simpa using hnc), if_neg (by simpa using hnf), if_neg (by simp [hst]), wp_bind, wp_get',
    if_neg (fun h => hne (List.length_eq_zero_iff.mp h)), wp_bind]
  refine wp_select hg hi hne hps (hr A.select (Or.inl rfl)) ?_ ?_
  · intro i e x0 f0 hpick hx0 hf0
    have hfl : f0.length = 1 := by rw [hi.wf.dimF f0 (List.mem_of_getElem? hf0), hnf]
    obtain ⟨a0, rfl⟩ := List.length_eq_one_iff.mp hfl
    have hb0 := hbox x0 (List.mem_of_getElem? hx0)
    rw [wp_bind]
    have hx0l : x0.length = P.info.nx := by rw [hnx]; exact hb0.1
    have h0 : SaInv (SaNum v P A) P s x0 a0 (fun _ => 0)
        ⟨x0, x0, x0, [a0], [a0], List.replicate P.info.nx A.start, List.replicate P.info.nx 0, A.ts⟩ [] { s with e := e } :=
      ⟨tracked_rng (tracked_refl hi) e, rfl, rfl, hb0, ⟨a0, a0, rfl, rfl, le_rfl, le_rfl, id, fun h => ⟨h, h⟩, by simp⟩, Or.inl rfl,
        hx0l, hx0l, by simp, by simp, fun hN w hw => by rw [List.eq_of_mem_replicate hw]; exact hN.start,
        fun i a ha => by rw [List.getElem?_replicate] at ha; split at ha <;> simp_all⟩
    refine (wp_saLoops hg hn hP hnx hnf hsz hbin h0).mono ?_ (fun _ _ h => h)
    rintro c s' ⟨new, hl, hc⟩
    obtain ⟨a, b, ha, hb, ord⟩ := hc.ord
    have hsrc := hc.src
    unfold saFinish
    rw [hb, wp_bind, wp_lift_get (by simp), wp_bind, wp_lift_get (by simp)]
    simp only [List.getElem_cons_zero]
    by_cases hnan : a0 = .nan
    · rw [if_neg (by rw [hnan]; cases b <;> simp [Fl.le, Fl.lt, Fl.eq]), wp_pure]
      exact ⟨new, hc.tr.evs, hc.tr.box, hl, i, x0, a0, hpick, hx0, hf0, Or.inl ⟨hnan, hc.pop⟩⟩
    · have hbn : b ≠ .nan := by
        intro e; have := ord.init; rw [e] at this
        cases a0 <;> simp_all [Fl.le_def, Fl.cls]
      rw [if_pos (fl_le_iff.mpr ⟨hbn, hnan, ord.init⟩)]
      have hpop := hc.pop
      refine wp_replace hg hnx0 (by omega) (better := Lower) hc.tr.inv (by rw [hpop]; exact hne) (by rw [hpop]; exact hps)
        (by rw [hpop]; exact hr A.replace (Or.inr rfl)) hc.nbest (by simpa using hnf.symm) ?_ ?_
      · intro j e p hj hid hx hf _ _ _
        rw [hpop] at hj hid hx hf
        refine ⟨new, hc.tr.evs, hc.tr.box, hl, i, x0, a0, hpick, hx0, hf0, Or.inr ⟨hnan, j, c.bestX, b, hj, ?_, ord.init, ?_, hid, hx, hf⟩⟩
        · rw [hb] at hsrc
          rcases hsrc with h | h
          · left; simpa using h
          · exact Or.inr h
        · intro y f hy
          exact ord.all hnan _ hy f rfl
      · intro e s'' hev h
        rw [hpop] at h
        refine ⟨new, by rw [hev, hc.tr.evs], hc.tr.box, ?_⟩
        rcases h with ⟨h1, k, h2, h3⟩ | h
        · exact Or.inr (Or.inr (Or.inl ⟨h1, k, Or.inr h2, h3⟩))
        · exact Or.inr (Or.inl h)
  · rintro ⟨k, h1, h2⟩
    exact ⟨[], by simp, by simp, Or.inr (Or.inr (Or.inl ⟨rfl, k, Or.inl h1, h2⟩))⟩

end

/-- C67 (errors). Constraints, several objectives, a stochastic problem or an empty population: `std::invalid_argument`
before any evaluation. -/
theorem C67_throws (v : SaEnv K σ) (P : AProb K) (A : Sa K) (s : St K σ)
    (h : P.info.nc ≠ 0 ∨ P.info.nf ≠ 1 ∨ P.info.stochastic = true ∨ s.pop.id = []) :
    saEvolve v P A s = (.throws .invalidArgument, s) := by
  unfold saEvolve
  by_cases h0 : P.info.nc = 0
  · rw [if_neg (by simpa using h0)]
    by_cases h1 : P.info.nf = 1
    · rw [if_neg (by simpa using h1)]
      cases h2 : P.info.stochastic with
      | true => rfl
      | false =>
        have h3 : s.pop.id = [] := by
          rcases h with h | h | h | h
          · exact absurd h0 h
          · exact absurd h1 h
          · rw [h2] at h; cases h
          · exact h
        simp only [Bool.false_eq_true, if_false]
        show Run.bind _ _ s = _
        simp only [Run.bind, Run.get, h3, List.length_nil, if_true]
        rfl
    · rw [if_pos (by simpa using h1)]; rfl
  · rw [if_pos (by simpa using h0)]; rfl

/-- The arguments the constructor of `simulated_annealing` accepts according to its documentation. -/
def SaArgs (ts tf : Fl K) (nT nR : Nat) (start : Fl K) : Prop :=
  ∃ a b r : K, ts = .fin a ∧ tf = .fin b ∧ start = .fin r ∧ 0 < b ∧ b ≤ a ∧ 0 < r ∧ r ≤ 1 ∧ 0 < nT ∧ 0 < nR

variable [IsStrictOrderedRing K]

/-- C67 (constructor). Exactly the documented arguments are accepted. -/
theorem C67_ctor (ts tf : Fl K) (nT nR bin : Nat) (start : Fl K) :
    (SaArgs ts tf nT nR start → saCtor ts tf nT nR bin start = .ok ⟨ts, tf, nT, nR, bin, start, .best, .best⟩) ∧
    (¬ SaArgs ts tf nT nR start → saCtor ts tf nT nR bin start = .throws .invalidArgument) := by
  constructor
  · rintro ⟨a, b, r, rfl, rfl, rfl, h1, h2, h3, h4, h5, h6⟩
    unfold saCtor
    simp only [Fl.le, Fl.lt, Fl.eq, Fl.gt, Fl.isFinite, Bool.not_true, Bool.or_false, Bool.or_eq_true, decide_eq_true_eq]
    rw [if_neg (not_or.mpr ⟨not_lt.mpr (h1.trans_le h2).le, (h1.trans_le h2).ne'⟩), if_neg (not_or.mpr ⟨not_lt.mpr h1.le, h1.ne'⟩),
      if_neg (not_lt.mpr h2), if_neg (by push Not; exact ⟨⟨h3.le, h3.ne'⟩, h4⟩), if_neg (by omega), if_neg (by omega)]
  · intro h
    unfold saCtor
    split
    · rfl
    rename_i g1
    split
    · rfl
    rename_i g2
    split
    · rfl
    rename_i g3
    split
    · rfl
    rename_i g4
    split
    · rfl
    rename_i g5
    split
    · rfl
    rename_i g6
    exfalso
    simp only [Bool.or_eq_true, not_or, Bool.not_eq_true', Bool.not_eq_false] at g1 g2 g4
    obtain ⟨a, rfl⟩ := fin_of_finite g1.2
    obtain ⟨b, rfl⟩ := fin_of_finite g2.2
    obtain ⟨r, rfl⟩ := fin_of_finite g4.2
    simp only [Fl.le, Fl.lt, Fl.eq, Fl.gt, Bool.or_eq_true, decide_eq_true_eq, not_or, not_lt] at g1 g2 g3 g4
    exact h ⟨a, b, r, rfl, rfl, rfl, lt_of_le_of_ne g2.1.1 (Ne.symm g2.1.2), g3, lt_of_le_of_ne g4.1.1.1 (Ne.symm g4.1.1.2), g4.1.2, by omega, by omega⟩

/-! ### The arithmetic, and non-triviality -/

/-- Rounded arithmetic, for any rounding that is monotone and keeps zero, one and the bounds. -/
theorem saNum_rounded (rnd : K → K) (hm : ∀ a b, a ≤ b → rnd a ≤ rnd b) (h0 : rnd 0 = 0) (h1 : rnd 1 = 1) (v : SaEnv K σ)
    (hop : v.op = Fl.rounded K rnd) (hcv : ∀ n : Nat, v.cv n = .fin (rnd n)) (P : AProb K) (hP : FiniteBox P)
    (hL : ∀ l, Fl.fin l ∈ P.lb → rnd l = l) (hU : ∀ u, Fl.fin u ∈ P.ub → rnd u = u) (A : Sa K)
    (hA : ∃ r, A.start = .fin r ∧ 0 ≤ r) : SaNum v P A := by
  have nn : ∀ {a : K}, 0 ≤ a → 0 ≤ rnd a := fun h => h0 ▸ hm _ _ h
  have oo : ∀ {a : K}, 1 ≤ a → 1 ≤ rnd a := fun {a} h => by have := hm _ _ h; rwa [h1] at this
  refine ⟨hP.finL, hP.finU, hA, ?_, ?_, ?_, ?_⟩
  · intro l u s _ _ hlu hs
    rw [hop]
    exact ⟨_, rfl, nn (mul_nonneg hs (nn (by linarith)))⟩
  · intro l u x w ml mu hl hu hw
    rw [hop]
    refine ⟨_, _, rfl, rfl, hm _ _ (by linarith), ?_, ?_⟩
    · have := hm (x + -w) u (by linarith); rwa [hU u mu] at this
    · have := hm l (x + w) (by linarith); rwa [hL l ml] at this
  · intro a b
    rw [hop]; rfl
  · intro s a hs ha
    obtain ⟨r, hr, hr0⟩ := hA
    have fin : ∀ t : K, 0 ≤ t → ∃ s', (if Fl.gt (.fin t) A.start then A.start else .fin t) = .fin s' ∧ 0 ≤ s' := by
      intro t ht
      rw [hr]
      split
      · exact ⟨r, rfl, hr0⟩
      · exact ⟨t, rfl, ht⟩
    unfold saStep
    rw [hop, hcv, hcv]
    simp only
    by_cases hb : A.bin = 0
    · have ha0 : a = 0 := by omega
      rw [hb, ha0]
      simp only [Nat.cast_zero, h0, Fl.rounded, Fl.div, if_true, Fl.post, Fl.gt, Fl.lt_nan_right, Fl.lt_nan_left, Bool.false_eq_true, if_false]
      exact fin s hs
    · have hbp : (1 : K) ≤ rnd A.bin := oo (by exact_mod_cast Nat.one_le_iff_ne_zero.mpr hb)
      have hbn : rnd (A.bin : K) ≠ 0 := by linarith
      have hq : (Fl.rounded K rnd).div (.fin (rnd a)) (.fin (rnd A.bin)) = .fin (rnd (rnd a / rnd A.bin)) := by
        simp [Fl.rounded, Fl.div, hbn, Fl.post]
      rw [hq]
      have hq0 : 0 ≤ rnd (rnd (a : K) / rnd A.bin) := nn (div_nonneg (nn (Nat.cast_nonneg a)) (by linarith))
      generalize rnd (rnd (a : K) / rnd A.bin) = q at hq0
      have h25 : (2 / 5 : K) ≠ 0 := by norm_num
      split
      · rename_i hgt
        simp only [Fl.gt, Fl.lt, decide_eq_true_eq] at hgt
        simp only [Fl.rounded, Fl.sub, Fl.neg, Fl.add, Fl.mul, Fl.div, Fl.post, if_neg h25]
        exact fin _ (nn (mul_nonneg hs (by
          have : 0 ≤ rnd (rnd (2 * rnd (q + -(3 / 5))) / (2 / 5)) := nn (div_nonneg (nn (mul_nonneg (by norm_num) (nn (by linarith)))) (by norm_num))
          exact nn (by linarith))))
      · split
        · rename_i hlt
          simp only [Fl.lt, decide_eq_true_eq] at hlt
          have hd : (1 : K) ≤ rnd (1 + rnd (2 * rnd (rnd (2 / 5 + -q) / (2 / 5)))) := by
            have : 0 ≤ rnd (2 * rnd (rnd (2 / 5 + -q) / (2 / 5))) := nn (mul_nonneg (by norm_num) (nn (div_nonneg (nn (by linarith)) (by norm_num))))
            exact oo (by linarith)
          have hd0 : rnd (1 + rnd (2 * rnd (rnd (2 / 5 + -q) / (2 / 5)))) ≠ 0 := by linarith
          simp only [Fl.rounded, Fl.sub, Fl.neg, Fl.add, Fl.mul, Fl.div, Fl.post, if_neg h25, if_neg hd0]
          exact fin _ (nn (div_nonneg hs (by linarith)))
        · exact fin s hs

omit [IsStrictOrderedRing K] in
theorem saNan_rounded (rnd : K → K) (v : SaEnv K σ) (hop : v.op = Fl.rounded K rnd) (hex : v.ex .nan = .nan) : SaNan v where
  ex := hex
  div a := by rw [hop]; cases a <;> rfl
  subL a := by rw [hop]; cases a <;> rfl
  subR a := by rw [hop]; cases a <;> rfl

/-- the acceptance probability 1/2 for every worse point -/
def saDemoEnv : SaEnv ℚ (List ℚ) :=
  { algDemoEnv with op := Fl.rounded ℚ id, ex := fun a => if a = .nan then .nan else .fin (1 / 2), pw := fun _ _ => .fin (1 / 2), cv := fun n => .fin n }

def saDemo : Sa ℚ := ⟨.fin 10, .fin (1 / 10), 2, 1, 3, .fin 1, .worst, .worst⟩

example : wp (saEvolve saDemoEnv algDemo saDemo) (fun _ s' => Annealed algDemo saDemo algDemoSt s')
    (SaFailed (SaNum saDemoEnv algDemo saDemo) algDemo saDemo algDemoSt) algDemoSt :=
  C67_anneal saDemoEnv _ demoGen_lawful (saNan_rounded id _ rfl rfl) algDemo algDemo_finiteBox.bounds rfl (by decide) rfl rfl rfl saDemo
    (by decide) algDemoSt algDemo_inv (by simp [algDemoSt]) (by simp [algDemoSt])
    (fun _ _ _ => ranked_unconstrained _ _ rfl rfl _ algDemo_inv.wf (by simp [algDemoSt]) (by simp [algDemoSt]) (by decide +kernel))
    (fun x hx => deDemo_box x (by simp [algDemoSt, deDemoSt] at hx ⊢; tauto))

example : SaNum saDemoEnv algDemo saDemo :=
  saNum_rounded id (fun _ _ h => h) rfl rfl _ rfl (fun _ => rfl) _ algDemo_finiteBox (fun _ _ => rfl) (fun _ _ => rfl) _ ⟨1, rfl, by norm_num⟩

/-- the best of six evaluated points replaces the worst individual, after a worse point (5) was accepted on the way -/
example : (saEvolve saDemoEnv algDemo saDemo { algDemoSt with e := [1/2, 1/4, 3/4, 1/2, 2/3, 1/3, 1/5, 1/3, 1/5, 1/7, 1/8, 1/4, 1/9] }).2.pop.x =
    [[.fin (10 / 9)], [.fin 1], [.fin 2]] := by decide +kernel
example : (saEvolve saDemoEnv algDemo saDemo { algDemoSt with e := [1/2, 1/4, 3/4, 1/2, 2/3, 1/3, 1/5, 1/3, 1/5, 1/7, 1/8, 1/4, 1/9] }).2.evs.map (·.1) =
    [[.fin (5 / 2)], [.fin 5], [.fin 2], [.fin 2], [.fin (5 / 4)], [.fin (10 / 9)]] := by decide +kernel

end Verif.Props
