import Verif.Proof.Ipopt
import Mathlib.Data.String.Basic

/-!
# C126, C127, C128: ipopt
-/

set_option autoImplicit false

namespace Verif.Props

open Verif Run Prob Pop Alg

variable {K σ : Type} [Field K] [LinearOrder K]

/-! ### What Ipopt is told -/

/-- The answer `r` to the question `a`, in the state `s` of a run started in `s0`, is what the user's problem says: the sizes; the bounds, with zero as both bounds of an
equality and nothing below an inequality; the starting point `x0`, but no multipliers; the objective function, its gradient, the constraints, equalities first, the nonzero
entries of their jacobian in the order of its structure, those of the hessian of the lagrangian in the order of its structure. -/
def IpTold (op : Fl.Ops K) (P : AProb K) (G : GProb K) (x0 : List (Fl K)) (s0 s : NlSt K σ) : IpAsk K → IpVal K → Prop
  | .info, r => ∃ sp hp l, gradientSparsity G.p G.gs = .ok sp ∧ hessiansSparsity G.p G.hs = .ok hp ∧ IpLagOf hp l ∧
      r = .info P.info.nx P.info.nc (sp.filter (fun p => 1 ≤ p.1)).length l.length
  | .bounds, r => ∃ gl gu, r = .bounds P.lb P.ub gl gu ∧ gl.length = P.info.nc ∧ gu.length = P.info.nc ∧
      ∀ i : Nat, i < P.info.nc → gl[i]? = some (if i < P.info.nec then .fin 0 else .ninf) ∧ gu[i]? = some (.fin 0)
  | .start ix iz il, r => iz = false ∧ il = false ∧ r = .values (if ix then x0 else [])
  | .f x, r => ∃ f a, NlCalled s0 s x f ∧ f.length = P.info.nf ∧ f[0]? = some a ∧ r = .values [a]
  | .gradF x, r => ∃ sp g d, gradientSparsity G.p G.gs = .ok sp ∧ NlGraded G s0 s x g ∧ r = .values d ∧ d.length = P.info.nx ∧
      ∀ j : Nat, j < P.info.nx → ∃ e, d[j]? = some e ∧ MatEntry (.fin 0) sp g 0 j e
  | .g x, r => ∃ f c, NlCalled s0 s x f ∧ f.length = P.info.nf ∧ r = .values c ∧ c.length = P.info.nc ∧ ∀ i : Nat, i < P.info.nc → c[i]? = f[1 + i]?
  | .jacStruct, r => ∃ sp l, gradientSparsity G.p G.gs = .ok sp ∧ IpJacOf sp l ∧ r = .struct l
  | .jac x, r => ∃ sp l g d, gradientSparsity G.p G.gs = .ok sp ∧ IpJacOf sp l ∧ NlGraded G s0 s x g ∧ r = .values d ∧ d.length = l.length ∧
      ∀ k i j : Nat, l[k]? = some (i, j) → ∃ e, d[k]? = some e ∧ MatEntry (.fin 0) sp g (i + 1) j e
  | .hessStruct, r => ∃ hp l, G.hasHess = true ∧ hessiansSparsity G.p G.hs = .ok hp ∧ IpLagOf hp l ∧ r = .struct l
  | .hess x factor lambda, r => ∃ hp l H d, hessiansSparsity G.p G.hs = .ok hp ∧ IpLagOf hp l ∧ NlHessed G s0 s x H ∧ r = .values d ∧ d.length = l.length ∧
      ∀ (k : Nat) (p : Nat × Nat), l[k]? = some p → ∃ e, d[k]? = some e ∧ IpSum op hp H factor lambda p P.info.nc e

theorem IpTold.mono {op : Fl.Ops K} {P : AProb K} {G : GProb K} {x0 : List (Fl K)} {s0 s s' : NlSt K σ} {a : IpAsk K} {r : IpVal K}
    (h : IpTold op P G x0 s0 s a r) (h' : NlExt s s') : IpTold op P G x0 s0 s' a r := by
  cases a with
  | f x => obtain ⟨f, b, h1, h2⟩ := h; exact ⟨f, b, h1.mono h', h2⟩
  | gradF x => obtain ⟨sp, g, d, h1, h2, h3⟩ := h; exact ⟨sp, g, d, h1, h2.mono h', h3⟩
  | g x => obtain ⟨f, c, h1, h2⟩ := h; exact ⟨f, c, h1.mono h', h2⟩
  | jac x => obtain ⟨sp, l, g, d, h1, h2, h3, h4⟩ := h; exact ⟨sp, l, g, d, h1, h2, h3.mono h', h4⟩
  | hess x o l => obtain ⟨hp, l, H, d, h1, h2, h3, h4⟩ := h; exact ⟨hp, l, H, d, h1, h2, h3.mono h', h4⟩
  | _ => exact h

/-- The vectors Ipopt passes have the right sizes. -/
def IpFits (I : Info) : IpAsk K → Prop
  | .f x => x.length = I.nx
  | .gradF x => x.length = I.nx
  | .g x => x.length = I.nx
  | .jac x => x.length = I.nx
  | .hess x _ lambda => x.length = I.nx ∧ lambda.length = I.nc
  | _ => True

/-- Something of the problem is too large for an `int`: the dimension, the number of constraints, or the number of entries of the jacobian or of the hessian. -/
def IpTooLarge (P : AProb K) (G : GProb K) : Prop :=
  2 ^ 31 ≤ P.info.nx ∨ 2 ^ 31 ≤ P.info.nc ∨ (∃ sp, gradientSparsity G.p G.gs = .ok sp ∧ 2 ^ 31 ≤ (sp.filter (fun p => 1 ≤ p.1)).length) ∨
    ∃ hp l, hessiansSparsity G.p G.hs = .ok hp ∧ IpLagOf hp l ∧ 2 ^ 31 ≤ l.length

/-- Why a method fails: the user's code, something is too large, multipliers are asked for, hessians are asked for that the problem does not have. -/
def IpWhy (P : AProb K) (G : GProb K) (s0 s : NlSt K σ) (a : IpAsk K) (e : Exn) : Prop :=
  NlCause P G s0 s e ∨ (e = .badCast ∧ a = .info ∧ IpTooLarge P G) ∨
    (e = .runtimeError ∧ ∃ ix iz il, a = .start ix iz il ∧ (iz = true ∨ il = true)) ∨
    (e = .invalidArgument ∧ G.hasHess = false ∧ (a = .hessStruct ∨ ∃ x o l, a = .hess x o l))

theorem IpWhy.mono {P : AProb K} {G : GProb K} {s0 s s' : NlSt K σ} {a : IpAsk K} {e : Exn} (h : IpWhy P G s0 s a e) (h' : NlExt s s') :
    IpWhy P G s0 s' a e := h.imp (fun h => h.mono h') id

/-- The points at which a question makes the user's fitness function run. -/
def ipRuns : IpAsk K → List (List (Fl K))
  | .f x => [x]
  | .g x => [x]
  | _ => []

/-- What a method does to the log: one more evaluation is counted if the objective function was asked for. -/
def IpLogged (sq : Fl K → Fl K) (P : AProb K) (verb : Nat) (s0 : NlSt K σ) (a : IpAsk K) (r : IpVal K) (s s' : NlSt K σ) : Prop :=
  match a with
  | .f x => ∃ f b, NlCalled s0 s' x f ∧ f[0]? = some b ∧ r = .values [b] ∧ LogStep sq P verb f s s'
  | _ => s'.count = s.count ∧ s'.log = s.log

/-- What the constructor of the wrapper stores. -/
structure IpNlpOf (G : GProb K) (N : IpNlp) (sp : List (Nat × Nat)) (hp : List (List (Nat × Nat))) : Prop where
  gsp : gradientSparsity G.p G.gs = .ok sp
  hsp : hessiansSparsity G.p G.hs = .ok hp
  jac : N.jacSp = (sp.drop (nlLower sp (1, 0))).map (fun p => (p.1 - 1, p.2))
  obj : N.objSp = if G.gs.isSome then sp.take (nlLower sp (1, 0)) else []
  hes : G.hs.isSome = true → N.hSp = hp
  lag : IpLagOf hp N.lagSp
  dense : G.hs.isSome = false → N.lagSp = denseHessian G.p.nx

/-- Why the constructor fails: more than one objective, no gradient, an invalid pattern, or an index too large for an `int`. -/
def IpNotMade (P : AProb K) (G : GProb K) (e : Exn) : Prop :=
  (e = .invalidArgument ∧ (1 < P.info.nobj ∨ G.hasGrad = false)) ∨ gradientSparsity G.p G.gs = .throws e ∨ hessiansSparsity G.p G.hs = .throws e ∨
    (e = .badCast ∧ ((∃ sp, gradientSparsity G.p G.gs = .ok sp ∧ ∃ p ∈ sp, 2 ^ 31 < p.1 ∨ 2 ^ 31 ≤ p.2) ∨
      ∃ hp, hessiansSparsity G.p G.hs = .ok hp ∧ ∃ q ∈ hp, ∃ p ∈ q, 2 ^ 31 ≤ p.1 ∨ 2 ^ 31 ≤ p.2))

variable [IsStrictOrderedRing K] [FloorRing K]

theorem ipMake_cases {P : AProb K} {G : GProb K} (hG : GradOf P G) :
    (∃ N sp hp, ipMake P G = .ok N ∧ IpNlpOf G N sp hp ∧ P.info.nobj = 1 ∧ G.hasGrad = true ∧ (∀ p ∈ N.lagSp, p.1 < 2 ^ 31 ∧ p.2 < 2 ^ 31) ∧
      ∀ p ∈ N.jacSp, p.1 < 2 ^ 31 ∧ p.2 < 2 ^ 31) ∨
    ∃ e, ipMake P G = .throws e ∧ IpNotMade P G e := by
  have hpos := hG.nobjPos
  unfold ipMake
  by_cases h1 : P.info.nobj > 1
  · rw [if_pos h1]; exact Or.inr ⟨_, rfl, Or.inl ⟨rfl, Or.inl h1⟩⟩
  rw [if_neg h1]
  by_cases h2 : G.hasGrad = false
  · rw [if_pos h2]; exact Or.inr ⟨_, rfl, Or.inl ⟨rfl, Or.inr h2⟩⟩
  rw [if_neg h2]
  rcases gradientSparsity_cases G.p G.gs with ⟨sp, h3, n3⟩ | h3
  swap
  · rw [h3]; exact Or.inr ⟨_, rfl, Or.inr (Or.inl h3)⟩
  rw [h3, Outcome.bind_ok]
  dsimp only
  obtain ⟨-, p2, -⟩ := hG.pattern h3
  rcases ipCastPairs_cases (fun p => (p.1 - 1, p.2)) (sp.drop (nlLower sp (1, 0))) with ⟨h4, n4⟩ | ⟨h4, p, hp, n4⟩
  swap
  · rw [h4]
    refine Or.inr ⟨_, rfl, Or.inr (Or.inr (Or.inr ⟨rfl, Or.inl ⟨sp, h3, p, (List.drop_sublist _ _).subset hp, ?_⟩⟩))⟩
    dsimp only at n4
    omega
  rw [h4, Outcome.bind_ok]
  rcases hessiansSparsity_cases G.p G.hs with ⟨hp, h5, n5⟩ | h5
  swap
  · have : ipHess P G = .throws .invalidArgument := by
      unfold ipHess
      cases hh : G.hs with
      | none => rw [hh] at h5; cases h5
      | some g => rw [hh] at h5; simp only [h5]; rfl
    rw [this]
    exact Or.inr ⟨_, rfl, Or.inr (Or.inr (Or.inl h5))⟩
  have hlag : ∃ l, ipHess P G = .ok (if G.hs.isSome then hp else [], l) ∧ IpLagOf hp l ∧ (G.hs.isSome = false → l = denseHessian G.p.nx) := by
    unfold ipHess
    cases hh : G.hs with
    | none =>
      rw [hh] at h5
      simp only [hessiansSparsity, Outcome.ok.injEq] at h5
      refine ⟨denseHessian P.info.nx, rfl, ⟨(C22_dense_hessian _).1.2, fun p => ?_⟩, fun _ => by rw [hG.pnx]⟩
      rw [← h5, hG.pnx]
      have hnf : G.p.nf ≠ 0 := by rw [hG.pnf, Info.nf]; omega
      unfold denseHessians
      constructor
      · intro h; exact ⟨_, List.mem_replicate.mpr ⟨hnf, rfl⟩, h⟩
      · rintro ⟨q, hq, h⟩; rw [List.eq_of_mem_replicate hq] at h; exact h
    | some g =>
      have hg := n5 g hh
      subst hg
      rw [hh] at h5
      simp only [h5]
      have hq : ∀ q ∈ hp, q.Pairwise LexLt := by
        simp only [hessiansSparsity] at h5
        by_cases hc : hp.length = G.p.nf ∧ ∀ h ∈ hp, HessPattern G.p.nx h
        · exact fun q hq => (hc.2 q hq).2
        · rw [(C22_checks G.p.nf G.p.nx [] hp).2.2.2.1.mpr hc] at h5; cases h5
      obtain ⟨u1, u2⟩ := ipUnion_fold hp hq [] List.Pairwise.nil
      exact ⟨hp.foldl ipUnion [], rfl, ⟨u1, fun p => by rw [u2 p]; simp⟩, fun h => by cases h⟩
  obtain ⟨l, h6, n6, n6'⟩ := hlag
  rw [h6, Outcome.bind_ok]
  dsimp only
  rcases ipCastPairs_cases id l with ⟨h7, n7⟩ | ⟨h7, p, hpl, n7⟩
  swap
  · rw [show (List.mapM ipCastPair l) = .throws .badCast from h7]
    obtain ⟨q, hq, hpq⟩ := (n6.2 p).mp hpl
    exact Or.inr ⟨_, rfl, Or.inr (Or.inr (Or.inr ⟨rfl, Or.inr ⟨hp, h5, q, hq, p, hpq, n7⟩⟩))⟩
  rw [show (List.mapM ipCastPair l) = .ok l from by rw [List.map_id] at h7; exact h7]
  refine Or.inl ⟨_, sp, hp, rfl, ⟨h3, h5, rfl, rfl, fun h => if_pos h, n6, n6'⟩, by omega, by simpa using h2, n7, fun p hp' => ?_⟩
  obtain ⟨q, hq, rfl⟩ := List.mem_map.mp hp'
  exact n4 q hq

theorem GradOf.hessPattern {P : AProb K} {G : GProb K} (h : GradOf P G) (hnx : G.hs.isSome = false → G.p.nx ≤ 2 ^ 32) {hp : List (List (Nat × Nat))}
    (hs : hessiansSparsity G.p G.hs = .ok hp) : hp.length = P.info.nf ∧ (∀ q ∈ hp, HessPattern P.info.nx q) ∧ hp.map List.length = G.p.hsDim := by
  rw [← h.pnf, ← h.pnx]
  cases hg : G.hs with
  | none =>
    obtain ⟨u, hu, _, h1⟩ := h.made
    have : u.hs = none := by
      cases hu' : u.hs with
      | none => rfl
      | some _ => rw [hu', hg] at h1; cases h1
    obtain ⟨l, e1, e2, e3, e4⟩ := C22_cached_hessians_partial u G.p hu (fun _ => hnx (by rw [hg]; rfl))
    rw [this] at e1
    rw [hg, e1, Outcome.ok.injEq] at hs
    subst hs
    exact ⟨e2, e3, e4⟩
  | some g =>
    rw [hg] at hs
    simp only [hessiansSparsity] at hs
    by_cases hc : g.length = G.p.nf ∧ ∀ h ∈ g, HessPattern G.p.nx h
    · rw [(C22_checks G.p.nf G.p.nx [] g).2.2.1.mpr hc, Outcome.bind_ok] at hs
      split at hs
      · cases hs
      · rename_i hl
        cases hs
        exact ⟨hc.1, hc.2, not_not.mp hl⟩
    · rw [(C22_checks G.p.nf G.p.nx [] g).2.2.2.1.mpr hc] at hs; cases hs

omit [IsStrictOrderedRing K] [FloorRing K] in
theorem ipGradF_eq {G : GProb K} {N : IpNlp} {sp : List (Nat × Nat)} {hp : List (List (Nat × Nat))} (hN : IpNlpOf G N sp hp) {z : Fl K} {nx : Nat} {g : List (Fl K)} :
    ipGradF z nx G.gs.isSome N.objSp g = nlObjGrad z nx G.gs g := by
  unfold ipGradF nlObjGrad
  rw [hN.obj]
  have hg := hN.gsp
  cases h : G.gs with
  | none => rfl
  | some o =>
    rw [h] at hg
    have : sp = o := by
      rcases gradientSparsity_cases G.p (some o) with ⟨sp', h1, h2⟩ | h1
      · rw [h1, Outcome.ok.injEq] at hg
        rw [← hg]; exact h2 o rfl
      · rw [h1] at hg; cases hg
    subst this
    simp only [Option.isSome_some, if_true, takeLower_eq]
    congr 2
    funext p
    exact pairLt_row p

theorem ipJac_eq {P : AProb K} {G : GProb K} (hG : GradOf P G) {N : IpNlp} {sp : List (Nat × Nat)} {hp : List (List (Nat × Nat))} (hN : IpNlpOf G N sp hp) {g : List (Fl K)}
    (hg : g.length = sp.length) : ipJac P.info.nx G.gs.isSome N.objSp g = .ok (g.drop (nlLower sp (1, 0))) := by
  have hk : nlLower sp (1, 0) ≤ sp.length := by rw [nlLower_eq]; exact (List.takeWhile_sublist _).length_le
  have e : (if G.gs.isSome = true then N.objSp.length else P.info.nx) = nlLower sp (1, 0) := by
    rw [hN.obj]
    have hp1 := (hG.pattern hN.gsp).1
    cases h : G.gs with
    | none =>
      rw [h] at hp1
      simp only [Option.isSome_none, Bool.false_eq_true, if_false]
      rw [hp1]
      exact (nlLower_dense (by have := hG.nobjPos; rw [Info.nf]; omega)).symm
    | some o =>
      simp only [Option.isSome_some, if_true, List.length_take]
      omega
  unfold ipJac
  dsimp only
  rw [e, if_pos (by omega)]

omit [IsStrictOrderedRing K] [FloorRing K] in
theorem ipCons_ok {P : AProb K} {f : List (Fl K)} (hn : P.info.nobj = 1) (hf : f.length = P.info.nf) :
    ∃ c, ipCons P.info.nec P.info.nc f = .ok c ∧ c.length = P.info.nc ∧ ∀ i : Nat, i < P.info.nc → c[i]? = f[1 + i]? := by
  have hf' : f.length = 1 + P.info.nec + P.info.nic := by rw [hf, Info.nf, hn]
  have hnc : P.info.nc = P.info.nec + P.info.nic := rfl
  have h1 : 1 + P.info.nec ≤ f.length := by omega
  have h2 : 1 + P.info.nec + (P.info.nc - P.info.nec) ≤ f.length := by omega
  obtain ⟨l1, g1⟩ := nlSlice_get (nlSlice_ok h1)
  obtain ⟨l2, g2⟩ := nlSlice_get (nlSlice_ok h2)
  refine ⟨_, by unfold ipCons; rw [nlSlice_ok h1, Outcome.bind_ok, nlSlice_ok h2]; rfl, by rw [List.length_append, l1, l2]; omega, fun i hi => ?_⟩
  by_cases h : i < P.info.nec
  · rw [List.getElem?_append_left (by rw [l1]; exact h), g1 i h]
  · rw [List.getElem?_append_right (by rw [l1]; omega), l1, g2 _ (by omega)]
    congr 1; omega

omit [IsStrictOrderedRing K] [FloorRing K] in
theorem IpNlpOf.jacOf {G : GProb K} {N : IpNlp} {sp : List (Nat × Nat)} {hp : List (List (Nat × Nat))} (hN : IpNlpOf G N sp hp) (hs : sp.Pairwise LexLt) : IpJacOf sp N.jacSp := by
  unfold IpJacOf
  rw [hN.jac, dropLower_filter hs, List.map_map]
  refine (List.map_congr_left (g := id) (fun p hp' => ?_)).trans (List.map_id _)
  have : 1 ≤ p.1 := by simpa using (List.mem_filter.mp hp').2
  exact Prod.ext (by simp only [Function.comp_apply, id]; omega) rfl

/-- C126 (callbacks). For every problem constructed from a user's problem, dense or sparse, every method Ipopt calls with vectors of the right size, and every state: the answer is what
`IpTold` says; or the exception is one of the user's code, or something Ipopt asks for does not exist or is too large. -/
theorem C126_told {v : Env K σ} {P : AProb K} {G : GProb K} (hG : GradOf P G) {N : IpNlp} (hN : ipMake P G = .ok N) (verb : Nat) (x0 : List (Fl K)) {s0 s : NlSt K σ}
    (hext : NlExt s0 s) (ht : s.st.pop.tol.length = P.info.nc) (a : IpAsk K) (ha : IpFits P.info a) :
    wp (ipBody v P G verb N x0 a)
      (fun r s' => NlExt s s' ∧ nlPts s' = nlPts s ++ ipRuns a ∧ s'.eptr = s.eptr ∧ IpTold v.op P G x0 s0 s' a r ∧ IpLogged v.sq P verb s0 a r s s')
      (fun e s' => NlExt s s' ∧ nlPts s' = nlPts s ++ ipRuns a ∧ s'.count = s.count ∧ s'.log = s.log ∧ IpWhy P G s0 s' a e) s := by
  obtain ⟨N', sp, hp, hmk, hof, hn, hgrad, hlagb, -⟩ | ⟨e, hmk, -⟩ := ipMake_cases hG
  swap
  · rw [hN] at hmk; cases hmk
  rw [hN, Outcome.ok.injEq] at hmk
  subst hmk
  obtain ⟨p1, p2, p3⟩ := hG.pattern hof.gsp
  have hnf : P.info.nf = 1 + P.info.nec + P.info.nic := by rw [Info.nf, hn]
  have hnc : P.info.nc = P.info.nec + P.info.nic := rfl
  have hnx32 : G.hs.isSome = false → G.p.nx ≤ 2 ^ 32 := by
    intro h
    have hx : 0 < G.p.nx := by rw [hG.pnx]; exact hG.nxPos
    have hm : (G.p.nx - 1, G.p.nx - 1) ∈ N.lagSp := by
      rw [hof.dense h]; exact (C22_dense_hessian _).2.1 _ (by dsimp only; omega) (Nat.le_refl _)
    have := (hlagb _ hm).1
    dsimp only at this
    omega
  obtain ⟨q1, q2, q3⟩ := hG.hessPattern hnx32 hof.hsp
  have pts : ∀ {s1 : NlSt K σ} {x : List (Fl K)} {r}, s1.st.evs = s.st.evs ++ [(x, r)] → nlPts s1 = nlPts s ++ [x] := by
    intro s1 x r h
    rw [nlPts, h, List.map_append]; rfl
  have pts0 : ∀ {s1 : NlSt K σ}, s1.st = s.st → nlPts s1 = nlPts s ++ [] := by
    intro s1 h
    rw [nlPts, h, List.append_nil]; rfl
  have same : NlExt s s ∧ nlPts s = nlPts s ++ [] := ⟨NlExt.refl s, (List.append_nil _).symm⟩
  cases a with
  | info =>
    show wp (Run.lift (ipInfo P N)) _ _ s
    have hjl : N.jacSp.length = (sp.filter (fun p => 1 ≤ p.1)).length := by rw [hof.jac, List.length_map, dropLower_filter p2.2]
    have bad : IpTooLarge P G → (NlExt s s ∧ nlPts s = nlPts s ++ [] ∧ s.count = s.count ∧ s.log = s.log ∧ IpWhy P G s0 s IpAsk.info .badCast) :=
      fun h => ⟨same.1, same.2, rfl, rfl, Or.inr (Or.inl ⟨rfl, rfl, h⟩)⟩
    unfold ipInfo ipCast
    by_cases h1 : P.info.nx < 2 ^ 31
    swap
    · rw [if_neg h1]; exact bad (Or.inl (by omega))
    by_cases h2 : P.info.nc < 2 ^ 31
    swap
    · rw [if_pos h1, if_neg h2]; exact bad (Or.inr (Or.inl (by omega)))
    by_cases h3 : N.jacSp.length < 2 ^ 31
    swap
    · rw [if_pos h1, if_pos h2, if_neg h3]; exact bad (Or.inr (Or.inr (Or.inl ⟨sp, hof.gsp, by omega⟩)))
    by_cases h4 : N.lagSp.length < 2 ^ 31
    swap
    · rw [if_pos h1, if_pos h2, if_pos h3, if_neg h4]; exact bad (Or.inr (Or.inr (Or.inr ⟨hp, N.lagSp, hof.hsp, hof.lag, by omega⟩)))
    rw [if_pos h1, if_pos h2, if_pos h3, if_pos h4]
    exact ⟨same.1, same.2, rfl, ⟨sp, hp, N.lagSp, hof.gsp, hof.hsp, hof.lag, by rw [hjl]⟩, rfl, rfl⟩
  | bounds =>
    show wp (pure (ipBounds P)) _ _ s
    rw [wp_pure]
    refine ⟨same.1, same.2, rfl, ⟨_, _, rfl, by simp; omega, by simp; omega, fun i hi => ?_⟩, rfl, rfl⟩
    by_cases h : i < P.info.nec
    · rw [List.getElem?_append_left (by simpa using h), List.getElem?_append_left (by simpa using h)]
      simp [h]
    · rw [List.getElem?_append_right (by simp; omega), List.getElem?_append_right (by simp; omega)]
      simp only [List.length_replicate, List.getElem?_replicate, if_neg h]
      rw [if_pos (by omega), if_pos (by omega)]
      exact ⟨rfl, rfl⟩
  | start ix iz il =>
    show wp (Run.lift (ipStart x0 ix iz il)) _ _ s
    have bad : (iz = true ∨ il = true) →
        (NlExt s s ∧ nlPts s = nlPts s ++ [] ∧ s.count = s.count ∧ s.log = s.log ∧ IpWhy P G s0 s (IpAsk.start ix iz il) .runtimeError) :=
      fun h => ⟨same.1, same.2, rfl, rfl, Or.inr (Or.inr (Or.inl ⟨rfl, ix, iz, il, rfl, h⟩))⟩
    cases iz with
    | true => exact bad (Or.inl rfl)
    | false =>
      cases il with
      | true => exact bad (Or.inr rfl)
      | false => exact ⟨same.1, same.2, rfl, ⟨rfl, rfl, rfl⟩, rfl, rfl⟩
  | f x =>
    simp only [ipBody]
    rw [wp_bind]
    refine wp_nlEval hext ha (fun f s1 hf hc he e1 e2 e3 e4 => ?_) (fun e s1 r hc he e1 e2 e4 => ⟨he, pts e4, e1, e2, Or.inl hc⟩)
    have h0 : 0 < f.length := by rw [hf, hnf]; omega
    rw [wp_bind, wp_lift_get h0, wp_bind]
    refine wp_nlCount hn hf (by rw [he.pop]; exact ht) (fun s3 he3 g1 g2 _ _ hlog => ?_)
    rw [wp_pure]
    refine ⟨he.trans he3, (congrArg (fun t => t.evs.map Prod.fst) g2).trans (pts e4), g1.trans e1,
      ⟨f, f[0], hc.mono he3, hf, List.getElem?_eq_getElem h0, rfl⟩, f, f[0], hc.mono he3, List.getElem?_eq_getElem h0, rfl, ?_⟩
    unfold LogStep at *
    rw [e2, e3, he.pop] at hlog
    exact hlog
  | gradF x =>
    simp only [ipBody]
    rw [wp_bind]
    refine wp_nlGradient (P := P) hext (by rw [hG.pnx]; exact ha) hgrad (fun g s2 hgl hgd he2 e1 e2 e3 e4 => ?_)
      (fun e s2 hc he2 e1 e2 e4 => ⟨he2, pts0 e4, e1, e2, Or.inl hc⟩)
    rw [ipGradF_eq hof]
    rw [p1] at p2
    obtain ⟨d, hd, hdl, hde⟩ := nlObjGrad_ok (Fl.fin (0 : K)) (nf := P.info.nf) (nx := P.info.nx) (o := G.gs) (g := g) (by rw [hnf]; omega) p2 (by rw [hgl, ← p3, p1])
    rw [wp_bind, hd, wp_lift_ok, wp_pure]
    exact ⟨he2, pts0 e4, e1, ⟨sp, g, d, hof.gsp, hgd, rfl, hdl, by rw [p1]; exact hde⟩, e2, e3⟩
  | g x =>
    simp only [ipBody]
    rw [wp_bind]
    refine wp_nlEval hext ha (fun f s1 hf hc he e1 e2 e3 e4 => ?_) (fun e s1 r hc he e1 e2 e4 => ⟨he, pts e4, e1, e2, Or.inl hc⟩)
    obtain ⟨c, hc1, hc2, hc3⟩ := ipCons_ok hn hf
    rw [wp_bind, hc1, wp_lift_ok, wp_pure]
    exact ⟨he, pts e4, e1, ⟨f, c, hc, hf, rfl, hc2, hc3⟩, e2, e3⟩
  | jacStruct =>
    show wp (pure _) _ _ s
    rw [wp_pure]
    exact ⟨same.1, same.2, rfl, ⟨sp, N.jacSp, hof.gsp, hof.jacOf p2.2, rfl⟩, rfl, rfl⟩
  | jac x =>
    simp only [ipBody]
    rw [wp_bind]
    refine wp_nlGradient (P := P) hext (by rw [hG.pnx]; exact ha) hgrad (fun g s2 hgl hgd he2 e1 e2 e3 e4 => ?_)
      (fun e s2 hc he2 e1 e2 e4 => ⟨he2, pts0 e4, e1, e2, Or.inl hc⟩)
    have hgs : g.length = sp.length := by rw [hgl, p3]
    rw [wp_bind, ipJac_eq hG hof hgs, wp_lift_ok, wp_pure]
    refine ⟨he2, pts0 e4, e1, ⟨sp, N.jacSp, g, _, hof.gsp, hof.jacOf p2.2, hgd, rfl, by rw [hof.jac]; simp [hgs], fun k i j hk => ?_⟩, e2, e3⟩
    rw [hof.jac, List.getElem?_map, List.getElem?_drop, Option.map_eq_some_iff] at hk
    obtain ⟨p, hpk, hpe⟩ := hk
    have hlt : nlLower sp (1, 0) + k < g.length := by rw [hgs]; exact (List.getElem?_eq_some_iff.mp hpk).1
    have hp1 : 1 ≤ p.1 := by
      have := (nlLower_spec p2.2 (1, 0) _ p hpk).mp (by omega)
      simp only [LexLt] at this; omega
    rw [Prod.mk.injEq] at hpe
    refine ⟨g[nlLower sp (1, 0) + k], by rw [List.getElem?_drop, List.getElem?_eq_getElem hlt], Or.inl ⟨_, ?_, List.getElem?_eq_getElem hlt⟩⟩
    rw [hpk]
    congr 1
    exact Prod.ext (by dsimp only; omega) hpe.2
  | hessStruct =>
    simp only [ipBody]
    by_cases hh : G.hasHess = false
    · rw [if_pos hh, wp_throw]
      exact ⟨same.1, same.2, rfl, rfl, Or.inr (Or.inr (Or.inr ⟨rfl, hh, Or.inl rfl⟩))⟩
    · rw [if_neg hh, wp_pure]
      exact ⟨same.1, same.2, rfl, ⟨hp, N.lagSp, by simpa using hh, hof.hsp, hof.lag, rfl⟩, rfl, rfl⟩
  | hess x factor lambda =>
    simp only [ipBody]
    by_cases hh : G.hasHess = false
    · rw [if_pos hh, wp_throw]
      exact ⟨same.1, same.2, rfl, rfl, Or.inr (Or.inr (Or.inr ⟨rfl, hh, Or.inr ⟨x, factor, lambda, rfl⟩⟩))⟩
    · rw [if_neg hh, wp_bind]
      refine wp_ipHessians (P := P) hext (by rw [hG.pnx]; exact ha.1) (by simpa using hh) (fun H s2 hl hm hgd he2 e1 e2 e3 e4 => ?_)
        (fun e s2 hc he2 e1 e2 e4 => ⟨he2, pts0 e4, e1, e2, Or.inl hc⟩)
      have hdense : G.hs.isSome = false → ∀ q ∈ hp, q = N.lagSp := by
        intro h q hq
        rw [hof.dense h]
        have := hof.hsp
        cases hg : G.hs with
        | some g => rw [hg] at h; cases h
        | none =>
          rw [hg] at this
          simp only [hessiansSparsity, Outcome.ok.injEq] at this
          rw [← this] at hq
          exact List.eq_of_mem_replicate hq
      obtain ⟨d, hd1, hd2, hd3⟩ := ipLag_ok (op := v.op) (N := N) (sparse := G.hs.isSome) (hp := hp) (H := H) (factor := factor) (lambda := lambda) (nc := P.info.nc)
        hof.lag hof.hes hdense (fun q hq => (q2 q hq).2) (by rw [q1, hnf, hnc]; omega) (by rw [hm, q3]) ha.2
      rw [wp_bind, hd1, wp_lift_ok, wp_pure]
      exact ⟨he2, pts0 e4, e1, ⟨hp, N.lagSp, H, d, hof.hsp, hof.lag, hgd, rfl, hd2, hd3⟩, e2, e3⟩

omit [IsStrictOrderedRing K] [FloorRing K] in
theorem hessiansSparsity_nodup {p : Problem K} {now : Option (List (List (Nat × Nat)))} {hp : List (List (Nat × Nat))} (h : hessiansSparsity p now = .ok hp) :
    ∀ q ∈ hp, q.Nodup := by
  intro q hq
  cases now with
  | none =>
    simp only [hessiansSparsity, Outcome.ok.injEq] at h
    rw [← h] at hq
    rw [List.eq_of_mem_replicate hq]
    exact lex_nodup (C22_dense_hessian _).1.2
  | some g =>
    simp only [hessiansSparsity] at h
    by_cases hc : g.length = p.nf ∧ ∀ h ∈ g, HessPattern p.nx h
    · rw [(C22_checks p.nf p.nx [] g).2.2.1.mpr hc, Outcome.bind_ok] at h
      split at h
      · cases h
      · cases h
        exact lex_nodup (hc.2 q hq).2
    · rw [(C22_checks p.nf p.nx [] g).2.2.2.1.mpr hc] at h; cases h

theorem IpHit.unique {R : Type} {z : R} {sp : List (Nat × Nat)} {h : List R} {i j : Nat} {d d' : R} (hn : sp.Nodup) (h1 : IpHit sp h (i, j) d) (h2 : MatEntry z sp h i j d') : d = d' := by
  obtain ⟨m, hm, hd⟩ := h1
  rcases h2 with ⟨k, hk, hd'⟩ | ⟨hno, _⟩
  · have hml := (List.getElem?_eq_some_iff.mp hm).1
    have : m = k := (List.getElem?_inj hml hn).mp (hm.trans hk.symm)
    subst this
    rw [hd] at hd'; exact Option.some.inj hd'
  · exact absurd (List.mem_of_getElem? hm) hno

omit [IsStrictOrderedRing K] [FloorRing K] in
/-- C126 (hessian of the lagrangian). In exact arithmetic, for finite entries and multipliers, what Ipopt gets at a pair is the entry of the hessian of the lagrangian: the factor times the entry of
the objective's hessian plus the sum over the constraints of the multiplier times the entry of the constraint's hessian, where entries outside a pattern are zero. -/
theorem C126_lagrangian {G : GProb K} {hp : List (List (Nat × Nat))} (hs : hessiansSparsity G.p G.hs = .ok hp) {H : List (List (Fl K))} {o : K} {lam : List K} {i j n : Nat} {e : Fl K}
    (h : IpSum (Fl.exact K) hp H (.fin o) (lam.map .fin) (i, j) n e) (D : Nat → K)
    (hD : ∀ (c : Nat) (sp : List (Nat × Nat)) (hc : List (Fl K)), c ≤ n → hp[c]? = some sp → H[c]? = some hc → MatEntry (.fin 0) sp hc i j (.fin (D c))) :
    e = .fin (o * D 0 + ((List.range n).map (fun c => lam.getD c 0 * D (c + 1))).sum) := by
  induction n generalizing e with
  | zero =>
    obtain ⟨sp, h0, e1, e2, hb⟩ := h
    have hm := hD 0 sp h0 (Nat.le_refl _) e1 e2
    simp only [List.range_zero, List.map_nil, List.sum_nil, add_zero]
    rcases hb with ⟨d, hd, he⟩ | ⟨hno, he⟩
    · have := hd.unique (hessiansSparsity_nodup hs sp (List.mem_of_getElem? e1)) hm
      subst this
      rcases he with rfl | rfl
      · show Fl.fin (D 0 * o) = _
        rw [mul_comm]
      · rfl
    · rcases hm with ⟨k, hk, _⟩ | ⟨_, h0'⟩
      · exact absurd (List.mem_of_getElem? hk) hno
      · rw [Fl.fin.injEq] at h0'
        rw [he, h0', mul_zero]
  | succ n ih =>
    obtain ⟨a, sp, h0, w, hsum, e1, e2, ew, hb⟩ := h
    have hm := hD (n + 1) sp h0 (Nat.le_refl _) e1 e2
    have ha := ih hsum (fun c sp hc hcn => hD c sp hc (by omega))
    rw [List.getElem?_map, Option.map_eq_some_iff] at ew
    obtain ⟨w', hw', rfl⟩ := ew
    have hget : lam.getD n 0 = w' := by rw [List.getD_eq_getElem?_getD, hw']; rfl
    rw [List.range_succ, List.map_append, List.sum_append, List.map_singleton, List.sum_singleton, hget, ← add_assoc]
    rcases hb with ⟨d, hd, he⟩ | ⟨hno, he⟩
    · have := hd.unique (hessiansSparsity_nodup hs sp (List.mem_of_getElem? e1)) hm
      subst this
      rw [ha] at he
      rcases he with rfl | rfl
      · show Fl.fin (_ + D (n + 1) * w') = _
        rw [mul_comm (D (n + 1)) w']
      · rfl
    · rcases hm with ⟨k, hk, _⟩ | ⟨_, h0'⟩
      · exact absurd (List.mem_of_getElem? hk) hno
      · rw [Fl.fin.injEq] at h0'
        rw [he, ha, h0', mul_zero, add_zero]

/-! ### The history of a run -/

/-- a question about the objective function that was answered -/
def ipIsObj : IpAsk K × Option (IpVal K) → Bool
  | (.f _, some _) => true
  | _ => false

/-- What holds in the state `s` of a run started in `s0` from `x0`, after the questions and answers `h`: every answer is what the user's problem says; each question about the objective
function or the constraints costs one evaluation, at its point; an exception is stored, and then some question has no answer; the log has a line for every `verb` values of the
objective function. -/
structure IpHistory (v : Env K σ) (P : AProb K) (G : GProb K) (verb : Nat) (x0 : List (Fl K)) (s0 s : NlSt K σ) (h : List (IpAsk K × Option (IpVal K))) : Prop where
  ext : NlExt s0 s
  told : ∀ a r, (a, some r) ∈ h → IpTold v.op P G x0 s0 s a r
  runs : nlPts s = nlPts s0 ++ h.flatMap (fun p => ipRuns p.1)
  fine : s.eptr = none → ∀ p ∈ h, p.2 ≠ none
  stored : ∀ e, s.eptr = some e → ∃ a h1 h2, h = h1 ++ (a, none) :: h2 ∧ (∀ p ∈ h2, p.2 ≠ none) ∧ IpWhy P G s0 s a e
  log : ∃ F, List.Forall₂ (fun (p : IpAsk K × Option (IpVal K)) f => ∃ x b, p = (.f x, some (.values [b])) ∧ f[0]? = some b ∧ NlCalled s0 s x f) (h.filter ipIsObj) F ∧
    s.count = F.length ∧ LogOf v.sq P verb s0.st.pop.tol F s.log

theorem IpHistory.nil {v : Env K σ} {P : AProb K} {G : GProb K} {verb : Nat} {x0 : List (Fl K)} {s0 s : NlSt K σ} (he : NlExt s0 s) (h0 : nlPts s = nlPts s0)
    (h1 : s.eptr = none) (h2 : s.count = 0) (h3 : s.log = []) : IpHistory v P G verb x0 s0 s [] where
  ext := he
  told := by simp
  runs := by simp [h0]
  fine := by simp
  stored := by simp [h1]
  log := ⟨[], List.Forall₂.nil, h2, by rw [h3]; exact LogOf.nil _ _ _ _⟩

theorem ip_guarded {v : Env K σ} {P : AProb K} {G : GProb K} (hG : GradOf P G) {N : IpNlp} (hN : ipMake P G = .ok N) {verb : Nat} {x0 : List (Fl K)} {s0 s : NlSt K σ}
    {h : List (IpAsk K × Option (IpVal K))} {E : Exn → NlSt K σ → Prop}
    (ht : s0.st.pop.tol.length = P.info.nc) (hh : IpHistory v P G verb x0 s0 s h) (a : IpAsk K) (ha : IpFits P.info a) :
    wp (nlGuard (ipBody v P G verb N x0 a)) (fun b s' => IpHistory v P G verb x0 s0 s' (h ++ [(a, b)])) E s := by
  obtain ⟨F, hF, hc, hl⟩ := hh.log
  refine wp_nlGuard ((C126_told hG hN verb x0 hh.ext (by rw [hh.ext.pop]; exact ht) a ha).mono (fun r s' hr => ?_) (fun e s' he => ?_))
  · obtain ⟨he, hp, hep, htold, hlog⟩ := hr
    have hF' : List.Forall₂ (fun (p : IpAsk K × Option (IpVal K)) f => ∃ x b, p = (.f x, some (.values [b])) ∧ f[0]? = some b ∧ NlCalled s0 s' x f) (h.filter ipIsObj) F :=
      hF.imp (fun p f ⟨x, b, h1, h2, h3⟩ => ⟨x, b, h1, h2, h3.mono he⟩)
    refine ⟨hh.ext.trans he, ?_, ?_, ?_, ?_, ?_⟩
    · intro a' r' hm
      rcases List.mem_append.mp hm with hm | hm
      · exact (hh.told a' r' hm).mono he
      · simp only [List.mem_singleton, Prod.mk.injEq, Option.some.injEq] at hm
        obtain ⟨rfl, rfl⟩ := hm
        exact htold
    · rw [hp, hh.runs, List.flatMap_append]; simp
    · intro hnone p hm
      rcases List.mem_append.mp hm with hm | hm
      · exact hh.fine (by rw [← hep]; exact hnone) p hm
      · simp only [List.mem_singleton] at hm
        subst hm; simp
    · intro e hs
      obtain ⟨a', h1, h2, heq, hsome, hw⟩ := hh.stored e (by rw [← hep]; exact hs)
      refine ⟨a', h1, h2 ++ [(a, some r)], by rw [heq]; simp, ?_, hw.mono he⟩
      intro p hm
      rcases List.mem_append.mp hm with hm | hm
      · exact hsome p hm
      · simp only [List.mem_singleton] at hm
        subst hm; simp
    · have htol : s.st.pop.tol = s0.st.pop.tol := by rw [hh.ext.pop]
      by_cases hobj : ∃ x, a = .f x
      · obtain ⟨x, rfl⟩ := hobj
        obtain ⟨f, b, h1, h2, h3, h4⟩ := hlog
        subst h3
        refine ⟨F ++ [f], ?_, ?_, ?_⟩
        · rw [List.filter_append]
          exact nlForall₂_snoc hF' ⟨x, b, rfl, h2, h1⟩
        · have : s'.count = s.count + 1 := h4.1
          rw [this, hc]; simp
        · rw [← htol] at hl ⊢
          exact hl.step hc h4
      · have hs : s'.count = s.count ∧ s'.log = s.log := by
          cases a <;> first | exact hlog | exact absurd ⟨_, rfl⟩ hobj
        refine ⟨F, ?_, by rw [hs.1]; exact hc, by rw [hs.2]; exact hl⟩
        rw [List.filter_append]
        have : ipIsObj (a, some r) = false := by cases a <;> first | rfl | exact absurd ⟨_, rfl⟩ hobj
        simp only [List.filter_cons, this, Bool.false_eq_true, if_false, List.filter_nil, List.append_nil]
        exact hF'
  · obtain ⟨he, hp, hcnt, hlog, hw⟩ := he
    have hx : NlExt s { s' with eptr := some e } := ⟨he.pop, he.evs, he.gc, he.hc, he.res, he.mlog⟩
    have hx' : NlExt s' { s' with eptr := some e } := ⟨rfl, List.prefix_rfl, List.prefix_rfl, List.prefix_rfl, rfl, rfl⟩
    refine ⟨hh.ext.trans hx, ?_, ?_, ?_, ?_, ?_⟩
    · intro a' r' hm
      rcases List.mem_append.mp hm with hm | hm
      · exact (hh.told a' r' hm).mono hx
      · simp at hm
    · show nlPts s' = _
      rw [hp, hh.runs, List.flatMap_append]; simp
    · intro hnone; cases hnone
    · intro e' hs
      simp only [Option.some.injEq] at hs
      subst hs
      exact ⟨a, h, [], rfl, by simp, hw.mono hx'⟩
    · refine ⟨F, ?_, hcnt.trans hc, by rw [show ({ s' with eptr := some e } : NlSt K σ).log = s.log from hlog]; exact hl⟩
      rw [List.filter_append]
      have : ipIsObj (a, (none : Option (IpVal K))) = false := by cases a <;> rfl
      simp only [List.filter_cons, this, Bool.false_eq_true, if_false, List.filter_nil, List.append_nil]
      exact hF.imp (fun p f ⟨x, b, h1, h2, h3⟩ => ⟨x, b, h1, h2, h3.mono hx⟩)

/-! ### Options -/

/-- A map: the keys are in ascending order. -/
def IpMap {V : Type} (l : List (String × V)) : Prop := l.Pairwise (fun p q => p.1 < q.1)

theorem IpMap.unique {V : Type} {l : List (String × V)} (h : IpMap l) {n : String} {v w : V} (h1 : (n, v) ∈ l) (h2 : (n, w) ∈ l) : v = w := by
  induction l with
  | nil => simp at h1
  | cons a l ih =>
    obtain ⟨h3, h4⟩ := List.pairwise_cons.mp h
    rcases List.mem_cons.mp h1 with e1 | h1 <;> rcases List.mem_cons.mp h2 with e2 | h2
    · rw [← e1] at e2; cases e2; rfl
    · have := h3 _ h2; rw [← e1] at this; exact absurd this (lt_irrefl _)
    · have := h3 _ h1; rw [← e2] at this; exact absurd this (lt_irrefl _)
    · exact ih h4 h1 h2

/-- C128 (setting an option). On a map, `set_*_option` sets the value of that option and leaves the other ones; the result is a map again. -/
theorem C128_set {V : Type} (n : String) (v : V) {l : List (String × V)} (h : IpMap l) :
    IpMap (ipSetOpt n v l) ∧ ∀ m w, (m, w) ∈ ipSetOpt n v l ↔ (m = n ∧ w = v) ∨ (m ≠ n ∧ (m, w) ∈ l) := by
  induction l with
  | nil =>
    refine ⟨List.pairwise_singleton _ _, fun m w => ?_⟩
    simp [ipSetOpt]
  | cons p l ih =>
    obtain ⟨h1, h2⟩ := List.pairwise_cons.mp h
    obtain ⟨i1, i2⟩ := ih h2
    unfold ipSetOpt
    by_cases hlt : n < p.1
    · rw [if_pos hlt]
      have hall : ∀ q ∈ p :: l, n < q.1 := by
        intro q hq
        rcases List.mem_cons.mp hq with rfl | hq
        · exact hlt
        · exact lt_trans hlt (h1 q hq)
      refine ⟨List.pairwise_cons.mpr ⟨hall, h⟩, fun m w => ?_⟩
      rw [List.mem_cons, Prod.mk.injEq]
      constructor
      · rintro (⟨rfl, rfl⟩ | hm)
        · exact Or.inl ⟨rfl, rfl⟩
        · exact Or.inr ⟨fun e => by have := hall _ hm; rw [e] at this; exact lt_irrefl _ this, hm⟩
      · rintro (⟨rfl, rfl⟩ | ⟨_, hm⟩)
        · exact Or.inl ⟨rfl, rfl⟩
        · exact Or.inr hm
    · rw [if_neg hlt]
      by_cases heq : n = p.1
      · rw [if_pos heq]
        refine ⟨List.pairwise_cons.mpr ⟨fun q hq => by dsimp only; rw [heq]; exact h1 q hq, h2⟩, fun m w => ?_⟩
        rw [List.mem_cons, Prod.mk.injEq, List.mem_cons]
        constructor
        · rintro (⟨rfl, rfl⟩ | hm)
          · exact Or.inl ⟨rfl, rfl⟩
          · refine Or.inr ⟨fun e => ?_, Or.inr hm⟩
            have := h1 _ hm
            rw [← heq, ← e] at this
            exact lt_irrefl _ this
        · rintro (⟨rfl, rfl⟩ | ⟨hne, hm | hm⟩)
          · exact Or.inl ⟨rfl, rfl⟩
          · exfalso; apply hne; rw [heq, ← hm]
          · exact Or.inr hm
      · rw [if_neg heq]
        have hgt : p.1 < n := lt_of_le_of_ne (not_lt.mp hlt) (fun e => heq e.symm)
        refine ⟨List.pairwise_cons.mpr ⟨fun q hq => ?_, i1⟩, fun m w => ?_⟩
        · rcases (i2 q.1 q.2).mp hq with ⟨e, _⟩ | ⟨_, hm⟩
          · rw [e]; exact hgt
          · exact h1 q hm
        · rw [List.mem_cons, i2 m w, List.mem_cons]
          constructor
          · rintro (e | h | ⟨hn, hm⟩)
            · refine Or.inr ⟨fun e' => ?_, Or.inl e⟩
              rw [← e] at hgt; rw [e'] at hgt; exact lt_irrefl _ hgt
            · exact Or.inl h
            · exact Or.inr ⟨hn, Or.inr hm⟩
          · rintro (h | ⟨hn, e | hm⟩)
            · exact Or.inr (Or.inl h)
            · exact Or.inl e
            · exact Or.inr (Or.inr ⟨hn, hm⟩)

/-- C128 (setting options). Setting the options of a map sets each of them to its value and leaves the other ones. -/
theorem C128_set_all {V : Type} {m l : List (String × V)} (hm : IpMap m) (h : IpMap l) :
    IpMap (ipSetOpts m l) ∧ ∀ n w, (n, w) ∈ ipSetOpts m l ↔ (n, w) ∈ m ∨ ((∀ u, (n, u) ∉ m) ∧ (n, w) ∈ l) := by
  unfold ipSetOpts
  induction m generalizing l with
  | nil => exact ⟨h, by simp⟩
  | cons p m ih =>
    obtain ⟨h1, h2⟩ := List.pairwise_cons.mp hm
    obtain ⟨s1, s2⟩ := C128_set p.1 p.2 h
    obtain ⟨i1, i2⟩ := ih h2 s1
    refine ⟨i1, fun n w => ?_⟩
    rw [List.foldl_cons, i2 n w, s2 n w]
    have hp : ∀ u, (n, u) ∈ m → n ≠ p.1 := fun u hu e => by
      have := h1 _ hu
      rw [← e] at this; exact lt_irrefl _ this
    constructor
    · rintro (h | ⟨ha, ⟨e1, e2⟩ | ⟨hn, hl⟩⟩)
      · exact Or.inl (by simp [h])
      · exact Or.inl (by rw [e1, e2]; simp)
      · refine Or.inr ⟨fun u hu => ?_, hl⟩
        rcases List.mem_cons.mp hu with e | hu
        · exact hn (by rw [← e])
        · exact ha u hu
    · rintro (hmem | ⟨ha, hl⟩)
      · rcases List.mem_cons.mp hmem with e | hmem
        · refine Or.inr ⟨fun u hu => hp u hu (by rw [← e]), Or.inl (by rw [← e]; exact ⟨rfl, rfl⟩)⟩
        · exact Or.inl hmem
      · refine Or.inr ⟨fun u hu => ha u (by simp [hu]), Or.inr ⟨fun e => ha p.2 (by rw [e]; simp), hl⟩⟩

/-- kind and name of an option -/
def ipKey : IpOpt K → Nat × String
  | .str n _ => (0, n)
  | .num n _ => (1, n)
  | .int n _ => (2, n)

/-- The options given to Ipopt: no option twice; those the user has set, with the user's values; of the other ones, `constr_viol_tol` is the smallest tolerance of the problem if that is
positive, the hessian is approximated if the problem has none, nothing is printed. -/
structure IpOptsOf (P : AProb K) (G : GProb K) (A : IpPar K) (tol : List (Fl K)) (opts : List (IpOpt K)) : Prop where
  once : opts.Pairwise (fun p q => ipKey p ≠ ipKey q)
  strs : ∀ n w, .str n w ∈ opts ↔ (n, w) ∈ A.strs ∨ ((∀ u, (n, u) ∉ A.strs) ∧ n = "hessian_approximation" ∧ w = "limited-memory" ∧ G.hasHess = false)
  nums : ∀ n w, .num n w ∈ opts ↔ (n, w) ∈ A.nums ∨ ((∀ u, (n, u) ∉ A.nums) ∧ n = "constr_viol_tol" ∧ w ∈ tol ∧ (∀ t ∈ tol, w ≤ t) ∧ .fin 0 < w)
  ints : ∀ n w, .int n w ∈ opts ↔ (n, w) ∈ A.ints ∨ ((∀ u, (n, u) ∉ A.ints) ∧ n = "print_level" ∧ w = 0)

omit [IsStrictOrderedRing K] [FloorRing K] in
theorem ipMin_ok {tol : List (Fl K)} (h : tol ≠ []) (hn : ∀ t ∈ tol, t ≠ .nan) : ∃ m, ipMin tol = .ok m ∧ m ∈ tol ∧ ∀ t ∈ tol, m ≤ t := by
  cases tol with
  | nil => exact absurd rfl h
  | cons a l =>
    refine ⟨_, rfl, ?_⟩
    have key : ∀ (l : List (Fl K)) (a : Fl K), a ≠ .nan → (∀ t ∈ l, t ≠ .nan) →
        l.foldl (fun m b => if Fl.lt b m then b else m) a ∈ a :: l ∧ ∀ t ∈ a :: l, l.foldl (fun m b => if Fl.lt b m then b else m) a ≤ t := by
      intro l
      induction l with
      | nil => intro a _ _; simp
      | cons b l ih =>
        intro a ha hl
        have hb : b ≠ .nan := hl b (by simp)
        simp only [List.foldl_cons]
        by_cases hlt : Fl.lt b a = true
        · rw [if_pos hlt]
          have hlt' := (Fl.lt_iff hb ha).mp hlt
          obtain ⟨i1, i2⟩ := ih b hb (fun t ht => hl t (by simp [ht]))
          refine ⟨List.mem_cons.mpr (Or.inr i1), fun t ht => ?_⟩
          rcases List.mem_cons.mp ht with rfl | ht
          · exact le_trans (i2 b (by simp)) hlt'.le
          · exact i2 t ht
        · rw [if_neg hlt]
          have hle : a ≤ b := not_lt.mp (fun h => hlt ((Fl.lt_iff hb ha).mpr h))
          obtain ⟨i1, i2⟩ := ih a ha (fun t ht => hl t (by simp [ht]))
          refine ⟨?_, fun t ht => ?_⟩
          · rcases List.mem_cons.mp i1 with e | h
            · rw [e]; simp
            · exact List.mem_cons.mpr (Or.inr (List.mem_cons.mpr (Or.inr h)))
          · rcases List.mem_cons.mp ht with rfl | ht
            · exact i2 _ (by simp)
            · rcases List.mem_cons.mp ht with rfl | ht
              · exact le_trans (i2 a (by simp)) hle
              · exact i2 t (by simp [ht])
    exact key l a (hn a (by simp)) (fun t ht => hn t (by simp [ht]))

theorem lookup_isNone {V : Type} (l : List (String × V)) (n : String) : (l.lookup n).isNone = true ↔ ∀ u, (n, u) ∉ l := by
  induction l with
  | nil => simp
  | cons p l ih =>
    rw [List.lookup_cons]
    by_cases h : n = p.1
    · subst h
      simp only [BEq.rfl]
      constructor
      · intro h; cases h
      · intro h; exact absurd (by simp) (h p.2)
    · have : (n == p.1) = false := by simpa using h
      rw [this]
      simp only
      rw [ih]
      constructor
      · intro h1 u hu
        rcases List.mem_cons.mp hu with e | hu
        · exact h (by rw [← e])
        · exact h1 u hu
      · intro h1 u hu
        exact h1 u (by simp [hu])

/-- C128 (the options of a run). For all maps of options and all tolerances that are numbers: what Ipopt is given is what `IpOptsOf` says. -/
theorem C128_options {P : AProb K} {G : GProb K} {A : IpPar K} {tol : List (Fl K)} (h1 : IpMap A.strs) (h2 : IpMap A.ints) (h3 : IpMap A.nums)
    (ht : tol.length = P.info.nc) (hn : ∀ t ∈ tol, t ≠ .nan) : ∃ opts, ipOptions P G A tol = .ok opts ∧ IpOptsOf P G A tol opts := by
  have hT : ∃ a, ipTol P A tol = .ok a ∧ (a = [] ∨ ∃ w, a = [.num "constr_viol_tol" w] ∧ ∀ u, ("constr_viol_tol", u) ∉ A.nums) ∧
      ∀ o, o ∈ a ↔ ∃ w, o = IpOpt.num "constr_viol_tol" w ∧ (∀ u, ("constr_viol_tol", u) ∉ A.nums) ∧ w ∈ tol ∧ (∀ t ∈ tol, w ≤ t) ∧ .fin 0 < w := by
    unfold ipTol
    by_cases hc : P.info.nc ≠ 0 ∧ (A.nums.lookup "constr_viol_tol").isNone = true
    · rw [if_pos hc]
      have hno := (lookup_isNone _ _).mp hc.2
      obtain ⟨m, e1, e2, e3⟩ := ipMin_ok (tol := tol) (fun h => by rw [h] at ht; exact hc.1 ht.symm) hn
      rw [e1, Outcome.bind_ok]
      by_cases hg : Fl.gt m (.fin 0) = true
      · rw [if_pos hg]
        have hg' : .fin 0 < m := by rw [Fl.gt, Fl.lt_iff (by simp) (hn m e2)] at hg; exact hg
        refine ⟨_, rfl, Or.inr ⟨m, rfl, hno⟩, fun o => ?_⟩
        rw [List.mem_singleton]
        constructor
        · rintro rfl; exact ⟨m, rfl, hno, e2, e3, hg'⟩
        · rintro ⟨w, rfl, _, w1, w2, _⟩
          rw [le_antisymm (w2 m e2) (e3 w w1)]
      · rw [if_neg hg]
        refine ⟨_, rfl, Or.inl rfl, fun o => ?_⟩
        simp only [List.not_mem_nil, false_iff, not_exists, not_and]
        rintro w rfl _ w1 w2 w3
        have : w = m := le_antisymm (w2 m e2) (e3 w w1)
        subst this
        exact hg (by rw [Fl.gt, Fl.lt_iff (by simp) (hn w w1)]; exact w3)
    · rw [if_neg hc]
      refine ⟨_, rfl, Or.inl rfl, fun o => ?_⟩
      simp only [List.not_mem_nil, false_iff, not_exists, not_and]
      rintro w rfl hno w1 _ _
      exact hc ⟨fun h => by rw [h] at ht; rw [List.length_eq_zero_iff.mp ht] at w1; simp at w1, (lookup_isNone _ _).mpr hno⟩
  obtain ⟨a, e1, ea, e2⟩ := hT
  unfold ipOptions
  rw [e1, Outcome.bind_ok]
  dsimp only
  refine ⟨_, rfl, ?_, ?_, ?_, ?_⟩
  · -- no option twice
    have hb : ∀ o ∈ (if G.hasHess = false ∧ (A.strs.lookup "hessian_approximation").isNone = true then [IpOpt.str (K := K) "hessian_approximation" "limited-memory"] else []),
        o = IpOpt.str (K := K) "hessian_approximation" "limited-memory" ∧ ∀ u, ("hessian_approximation", u) ∉ A.strs := by
      intro o ho
      split at ho
      · rename_i hc; exact ⟨List.mem_singleton.mp ho, (lookup_isNone _ _).mp hc.2⟩
      · simp at ho
    have hc : ∀ o ∈ (if (A.ints.lookup "print_level").isNone = true then [IpOpt.int (K := K) "print_level" 0] else []),
        o = IpOpt.int (K := K) "print_level" 0 ∧ ∀ u, ("print_level", u) ∉ A.ints := by
      intro o ho
      split at ho
      · rename_i hc; exact ⟨List.mem_singleton.mp ho, (lookup_isNone _ _).mp hc⟩
      · simp at ho
    have hpl : ∀ {V : Type} {l : List (String × V)} (f : String × V → IpOpt K) (k : Nat), IpMap l → (∀ p, ipKey (f p) = (k, p.1)) →
        (l.map f).Pairwise (fun p q => ipKey p ≠ ipKey q) := by
      intro V l f k hl hf
      rw [List.pairwise_map]
      refine List.Pairwise.imp (fun {p q} hpq e => ?_) hl
      rw [hf, hf, Prod.mk.injEq] at e
      exact absurd e.2 hpq.ne
    have hone : ∀ (c : Prop) [Decidable c] (o : IpOpt K), (if c then [o] else []).Pairwise (fun p q => ipKey p ≠ ipKey q) := by
      intro c _ o; split <;> simp
    have ha1 : a.Pairwise (fun p q => ipKey p ≠ ipKey q) := by
      rcases ea with rfl | ⟨w, rfl, _⟩ <;> simp
    have ha2 : ∀ o ∈ a, ∃ w, o = IpOpt.num "constr_viol_tol" w ∧ ∀ u, ("constr_viol_tol", u) ∉ A.nums := by
      intro o ho
      obtain ⟨w, h1, h2, _⟩ := (e2 o).mp ho
      exact ⟨w, h1, h2⟩
    have hstr : ∀ o ∈ A.strs.map (fun p => IpOpt.str (K := K) p.1 p.2), ∃ n u, o = .str n u ∧ (n, u) ∈ A.strs := by
      intro o ho; obtain ⟨p, hp, rfl⟩ := List.mem_map.mp ho; exact ⟨p.1, p.2, rfl, hp⟩
    have hnum : ∀ o ∈ A.nums.map (fun p => IpOpt.num (K := K) p.1 p.2), ∃ n u, o = .num n u ∧ (n, u) ∈ A.nums := by
      intro o ho; obtain ⟨p, hp, rfl⟩ := List.mem_map.mp ho; exact ⟨p.1, p.2, rfl, hp⟩
    have hint : ∀ o ∈ A.ints.map (fun p => IpOpt.int (K := K) p.1 p.2), ∃ n u, o = .int n u ∧ (n, u) ∈ A.ints := by
      intro o ho; obtain ⟨p, hp, rfl⟩ := List.mem_map.mp ho; exact ⟨p.1, p.2, rfl, hp⟩
    simp only [List.pairwise_append]
    refine ⟨⟨⟨⟨⟨ha1, hone _ _, ?_⟩, hone _ _, ?_⟩, hpl _ 0 h1 (fun _ => rfl), ?_⟩, hpl _ 1 h3 (fun _ => rfl), ?_⟩, hpl _ 2 h2 (fun _ => rfl), ?_⟩
    · intro p hp q hq
      obtain ⟨w, rfl, _⟩ := ha2 p hp
      obtain ⟨rfl, _⟩ := hb q hq
      simp [ipKey]
    · intro p hp q hq
      obtain ⟨rfl, _⟩ := hc q hq
      rcases List.mem_append.mp hp with hp | hp
      · obtain ⟨w, rfl, _⟩ := ha2 p hp; simp [ipKey]
      · obtain ⟨rfl, _⟩ := hb p hp; simp [ipKey]
    · intro p hp q hq
      obtain ⟨n, u, rfl, hm⟩ := hstr q hq
      rcases List.mem_append.mp hp with hp | hp
      · rcases List.mem_append.mp hp with hp | hp
        · obtain ⟨w, rfl, _⟩ := ha2 p hp; simp [ipKey]
        · obtain ⟨rfl, hno⟩ := hb p hp
          intro e
          simp only [ipKey, Prod.mk.injEq, true_and] at e
          rw [← e] at hm
          exact hno u hm
      · obtain ⟨rfl, _⟩ := hc p hp; simp [ipKey]
    · intro p hp q hq
      obtain ⟨n, u, rfl, hm⟩ := hnum q hq
      rcases List.mem_append.mp hp with hp | hp
      · rcases List.mem_append.mp hp with hp | hp
        · rcases List.mem_append.mp hp with hp | hp
          · obtain ⟨w, rfl, hno⟩ := ha2 p hp
            intro e
            simp only [ipKey, Prod.mk.injEq, true_and] at e
            rw [← e] at hm
            exact hno u hm
          · obtain ⟨rfl, _⟩ := hb p hp; simp [ipKey]
        · obtain ⟨rfl, _⟩ := hc p hp; simp [ipKey]
      · obtain ⟨n', u', rfl, _⟩ := hstr p hp; simp [ipKey]
    · intro p hp q hq
      obtain ⟨n, u, rfl, hm⟩ := hint q hq
      rcases List.mem_append.mp hp with hp | hp
      · rcases List.mem_append.mp hp with hp | hp
        · rcases List.mem_append.mp hp with hp | hp
          · rcases List.mem_append.mp hp with hp | hp
            · obtain ⟨w, rfl, _⟩ := ha2 p hp; simp [ipKey]
            · obtain ⟨rfl, _⟩ := hb p hp; simp [ipKey]
          · obtain ⟨rfl, hno⟩ := hc p hp
            intro e
            simp only [ipKey, Prod.mk.injEq, true_and] at e
            rw [← e] at hm
            exact hno u hm
        · obtain ⟨n', u', rfl, _⟩ := hstr p hp; simp [ipKey]
      · obtain ⟨n', u', rfl, _⟩ := hnum p hp; simp [ipKey]
  · intro n w
    simp only [List.mem_append, e2, List.mem_map, reduceCtorEq, false_and, exists_false, and_false, or_false, false_or, Prod.exists, IpOpt.str.injEq]
    rw [show (IpOpt.str n w ∈ (if (A.ints.lookup "print_level").isNone = true then [IpOpt.int (K := K) "print_level" 0] else [])) ↔ False from by split <;> simp]
    constructor
    · rintro ((h | h) | ⟨a, b, h, rfl, rfl⟩)
      · split at h
        · rename_i hc
          rw [List.mem_singleton, IpOpt.str.injEq] at h
          exact Or.inr ⟨by rw [h.1]; exact (lookup_isNone _ _).mp hc.2, h.1, h.2, hc.1⟩
        · simp at h
      · exact h.elim
      · exact Or.inl h
    · rintro (h | ⟨h, rfl, rfl, hh⟩)
      · exact Or.inr ⟨n, w, h, rfl, rfl⟩
      · refine Or.inl (Or.inl ?_)
        rw [if_pos ⟨hh, (lookup_isNone _ _).mpr h⟩]; simp
  · intro n w
    simp only [List.mem_append, e2, List.mem_map, reduceCtorEq, false_and, exists_false, and_false, or_false, Prod.exists, IpOpt.num.injEq]
    rw [show (IpOpt.num n w ∈ (if (A.ints.lookup "print_level").isNone = true then [IpOpt.int (K := K) "print_level" 0] else [])) ↔ False from by split <;> simp]
    rw [show (IpOpt.num n w ∈ (if G.hasHess = false ∧ (A.strs.lookup "hessian_approximation").isNone = true then [IpOpt.str (K := K) "hessian_approximation" "limited-memory"] else [])) ↔ False
      from by split <;> simp]
    simp only [or_false]
    constructor
    · rintro (⟨w', ⟨rfl, rfl⟩, h⟩ | ⟨a, b, h, rfl, rfl⟩)
      · exact Or.inr ⟨h.1, rfl, h.2⟩
      · exact Or.inl h
    · rintro (h | ⟨h, rfl, hh⟩)
      · exact Or.inr ⟨n, w, h, rfl, rfl⟩
      · exact Or.inl ⟨w, ⟨rfl, rfl⟩, h, hh⟩
  · intro n w
    simp only [List.mem_append, e2, List.mem_map, reduceCtorEq, false_and, exists_false, and_false, or_false, false_or, Prod.exists, IpOpt.int.injEq]
    rw [show (IpOpt.int n w ∈ (if G.hasHess = false ∧ (A.strs.lookup "hessian_approximation").isNone = true then [IpOpt.str (K := K) "hessian_approximation" "limited-memory"] else [])) ↔ False
      from by split <;> simp]
    constructor
    · rintro ((h | h) | ⟨a, b, h, rfl, rfl⟩)
      · exact h.elim
      · split at h
        · rename_i hc
          rw [List.mem_singleton, IpOpt.int.injEq] at h
          exact Or.inr ⟨by rw [h.1]; exact (lookup_isNone _ _).mp hc, h.1, h.2⟩
        · simp at h
      · exact Or.inl h
    · rintro (h | ⟨h, rfl, rfl⟩)
      · exact Or.inr ⟨n, w, h, rfl, rfl⟩
      · refine Or.inl (Or.inr ?_)
        rw [if_pos ((lookup_isNone _ _).mpr h)]; simp

omit [Field K] [LinearOrder K] [IsStrictOrderedRing K] [FloorRing K] in
theorem ipSet_cases (c : IpSetup K) (os : List (IpOpt K)) : ∀ past : List (IpOpt K),
    ipSet c past os = .ok () ∧ (∀ (k : Nat) (o : IpOpt K), os[k]? = some o → c.accept (past ++ os.take k) o = true) ∨
    ipSet c past os = .throws .invalidArgument ∧ ∃ (k : Nat) (o : IpOpt K), os[k]? = some o ∧ c.accept (past ++ os.take k) o = false := by
  induction os with
  | nil => intro past; exact Or.inl ⟨rfl, by simp⟩
  | cons o os ih =>
    intro past
    unfold ipSet
    by_cases h : c.accept past o = true
    · rw [if_pos h]
      rcases ih (past ++ [o]) with ⟨h1, h2⟩ | ⟨h1, k, o', h2, h3⟩
      · refine Or.inl ⟨h1, fun k o' hk => ?_⟩
        cases k with
        | zero =>
          simp only [List.getElem?_cons_zero, Option.some.injEq] at hk
          subst hk; simpa using h
        | succ k =>
          have := h2 k o' hk
          simpa using this
      · exact Or.inr ⟨h1, k + 1, o', h2, by simpa using h3⟩
    · rw [if_neg h]
      exact Or.inr ⟨rfl, 0, o, rfl, by simpa using h⟩

/-! ### C127 -/

/-- A complete run of Ipopt from the individual `x0` with the options `opts`, with questions and answers `h`, that ended in the state `t` with the code `code`; `x` is the solution Ipopt
passed to `finalize_solution`, or zero if it did not call that. -/
structure IpRan (v : Env K σ) (P : AProb K) (G : GProb K) (A : IpPar K) (c : IpSetup K) (lib : List (IpOpt K) → IpSolver K) (s t : NlSt K σ) (x0 : List (Fl K)) (opts : List (IpOpt K))
    (h : List (IpAsk K × Option (IpVal K))) (x : List (Fl K)) (code : Int) : Prop where
  inside : NlInside P.lb P.ub x0
  options : IpOptsOf P G A s.st.pop.tol opts
  accepted : ∀ (k : Nat) (o : IpOpt K), opts[k]? = some o → c.accept (opts.take k) o = true
  initialised : c.init opts = true
  asked : Played (lib opts) h
  ended : lib opts h = .inr (some x, code) ∨ lib opts h = .inr (none, code) ∧ x = List.replicate P.info.nx (.fin 0)
  true : IpHistory v P G A.verb x0 s t h

/-- What `evolve` did: nothing if the population is empty. Otherwise Ipopt ran from the selected individual and all its questions were answered; its solution is evaluated
once more, and if that is better than the selected individual it overwrites the one the policy names; the identifiers stay. The result code and the log are those of the run. -/
def IpDone (better : List (Fl K) → List (Fl K) → Prop) (v : Env K σ) (P : AProb K) (G : GProb K) (c : IpSetup K) (lib : List (IpOpt K) → IpSolver K) (A : IpPar K)
    (s s' : NlSt K σ) : Prop :=
  (s.st.pop.id = [] ∧ s' = s) ∨
  ∃ i x0 f0 opts h x code f t, Picked better s.st.pop A.select i ∧ s.st.pop.x[i]? = some x0 ∧ s.st.pop.f[i]? = some f0 ∧
    IpRan v P G A c lib s t x0 opts h x code ∧ (∀ p ∈ h, p.2 ≠ none) ∧
    s'.res = some code ∧ s'.mlog = t.log ∧ s'.st.evs = t.st.evs ++ [(x, .ok f)] ∧ s'.gcalls = t.gcalls ∧ s'.hcalls = t.hcalls ∧ f.length = P.info.nf ∧
    ((better f f0 ∧ ∃ j, Picked better s.st.pop A.replace j ∧ s'.st.pop.id = s.st.pop.id ∧ s'.st.pop.x = s.st.pop.x.set j x ∧
        s'.st.pop.f = s.st.pop.f.set j f) ∨
      (¬ better f f0 ∧ s'.st.pop = s.st.pop))

/-- Why Ipopt is not started: the problem is not one for Ipopt, an option is refused, the initialisation fails, the index of the policy is too large, the selected individual is not
inside the bounds. -/
def IpRefused (better : List (Fl K) → List (Fl K) → Prop) (P : AProb K) (G : GProb K) (c : IpSetup K) (A : IpPar K) (s : NlSt K σ) (e : Exn) : Prop :=
  IpNotMade P G e ∨
  (e = .invalidArgument ∧ ∃ opts, IpOptsOf P G A s.st.pop.tol opts ∧ ∃ (k : Nat) (o : IpOpt K), opts[k]? = some o ∧ c.accept (opts.take k) o = false) ∨
  (e = .runtimeError ∧ ∃ opts, IpOptsOf P G A s.st.pop.tol opts ∧ c.init opts = false) ∨
  (e = .invalidArgument ∧ ∃ k, A.select = .index k ∧ s.st.pop.id.length ≤ k) ∨
  (e = .invalidArgument ∧ ∃ i x0, Picked better s.st.pop A.select i ∧ s.st.pop.x[i]? = some x0 ∧ ¬ NlInside P.lb P.ub x0)

/-- How `evolve` fails. Either before Ipopt runs, with nothing changed. Or after: result code and log are those of the run, and the exception is that of the last question without
an answer, or comes from the last evaluation, or the policy's index is too large, or memory ran out. -/
def IpFailed (better : List (Fl K) → List (Fl K) → Prop) (v : Env K σ) (P : AProb K) (G : GProb K) (c : IpSetup K) (lib : List (IpOpt K) → IpSolver K)
    (A : IpPar K) (s : NlSt K σ) (e : Exn) (s' : NlSt K σ) : Prop :=
  (s'.st.pop = s.st.pop ∧ s'.st.evs = s.st.evs ∧ s'.gcalls = s.gcalls ∧ s'.hcalls = s.hcalls ∧ s'.res = s.res ∧ s'.mlog = s.mlog ∧ IpRefused better P G c A s e) ∨
  ∃ i x0 f0 opts h x code t, Picked better s.st.pop A.select i ∧ s.st.pop.x[i]? = some x0 ∧ s.st.pop.f[i]? = some f0 ∧
    IpRan v P G A c lib s t x0 opts h x code ∧ s'.res = some code ∧ s'.mlog = t.log ∧
    ((s'.st.pop = s.st.pop ∧ s'.st.evs = t.st.evs ∧ ∃ a h1 h2, h = h1 ++ (a, none) :: h2 ∧ (∀ p ∈ h2, p.2 ≠ none) ∧ IpWhy P G s s' a e) ∨
      (∀ p ∈ h, p.2 ≠ none) ∧ ∃ r, s'.st.evs = t.st.evs ++ [(x, r)] ∧
        ((s'.st.pop = s.st.pop ∧ UserFault P s'.st.evs e) ∨
          ∃ f, r = .ok f ∧ better f f0 ∧ (e = .invalidArgument ∧ (∃ k, A.replace = .index k ∧ s.st.pop.id.length ≤ k) ∨ e = .badAlloc ∧ s.st.pop.faults ≠ [])))

theorem ip_finish {v : Env K σ} {rep : K → Prop} (hg : v.g.Lawful rep) {P : AProb K} {G : GProb K} (hG : GradOf P G) {A : IpPar K} {c : IpSetup K}
    {lib : List (IpOpt K) → IpSolver K} {better : List (Fl K) → List (Fl K) → Prop} {s t : NlSt K σ} (hi : Inv P.info s.st.pop) (hne : s.st.pop.id ≠ [])
    (hsz : s.st.pop.id.length ≤ 2 ^ 64 - 1) (hn : P.info.nobj = 1)
    (hb : ∀ f g : List (Fl K), f.length = P.info.nf → g.length = P.info.nf → (better f g ↔ Con.compareFc v.sq f g P.info.nec s.st.pop.tol = .ok true))
    (hr : A.replace = .best ∨ A.replace = .worst → Ranked v P better s.st.pop)
    {i : Nat} {x0 f0 x : List (Fl K)} {opts : List (IpOpt K)} {code : Int} {h : List (IpAsk K × Option (IpVal K))} (hp : Picked better s.st.pop A.select i)
    (hx0 : s.st.pop.x[i]? = some x0) (hf0 : s.st.pop.f[i]? = some f0) (hran : IpRan v P G A c lib s t x0 opts h x code) (hx : x.length = P.info.nx) :
    wp (nlFinish v P A.replace f0 x code) (fun _ s' => IpDone better v P G c lib A s s') (IpFailed better v P G c lib A s) t := by
  have hpop : t.st.pop = s.st.pop := hran.true.ext.pop
  have hf0l : f0.length = P.info.nf := hi.wf.dimF f0 (List.mem_of_getElem? hf0)
  unfold nlFinish
  rw [wp_bind, wp_modify, wp_bind, wp_get]
  dsimp only
  cases he : t.eptr with
  | some e =>
    dsimp only
    rw [wp_throw]
    obtain ⟨a, h1, h2, heq, hsome, hw⟩ := hran.true.stored e he
    exact Or.inr ⟨i, x0, f0, opts, h, x, code, t, hp, hx0, hf0, hran, rfl, rfl, Or.inl ⟨hpop, rfl, a, h1, h2, heq, hsome, hw⟩⟩
  | none =>
    dsimp only
    have hall := hran.true.fine he
    rw [wp_bind, wp_onSt]
    refine wp_eval hx (fun f _ hf => ?_) (fun e r hu => ?_)
    · rw [wp_bind, wp_get]
      dsimp only
      have htl : t.st.pop.tol = s.st.pop.tol := by rw [hpop]
      have hval : ∀ g : List (Fl K), g.length = P.info.nf → Con.Valid g P.info.nec s.st.pop.tol := by
        intro g hgl
        have := hi.tol
        refine ⟨?_, ?_⟩ <;> simp only [Info.nf, Info.nc] at * <;> omega
      rw [wp_bind, htl]
      obtain ⟨b, hbo⟩ := Con.compareFc_isOk (sq := v.sq) (hval f hf) (hval f0 hf0l)
      rw [hbo, wp_lift_ok]
      have hbf := hb f f0 hf hf0l
      rw [hbo] at hbf
      cases b with
      | false =>
        simp only [Bool.false_eq_true, if_false]
        rw [wp_pure]
        refine Or.inr ⟨i, x0, f0, opts, h, x, code, f, t, hp, hx0, hf0, hran, hall, rfl, rfl, rfl, rfl, rfl, hf, Or.inr ⟨fun h => ?_, hpop⟩⟩
        have := hbf.mp h
        cases this
      | true =>
        rw [if_pos rfl, wp_onSt]
        have hbet : better f f0 := hbf.mpr rfl
        refine wp_replace hg hG.nxPos (by rw [hn]; exact Nat.one_pos) (better := better) (show Inv P.info t.st.pop by rw [hpop]; exact hi)
          (show t.st.pop.id ≠ [] by rw [hpop]; exact hne) (show t.st.pop.id.length ≤ 2 ^ 64 - 1 by rw [hpop]; exact hsz)
          (show _ → Ranked v P better t.st.pop by rw [hpop]; exact hr) hx hf ?_ ?_
        · intro j e' p hpj h1 h2 h3 _ _ _
          dsimp only at hpj h1 h2 h3
          rw [hpop] at hpj h1 h2 h3
          exact Or.inr ⟨i, x0, f0, opts, h, x, code, f, t, hp, hx0, hf0, hran, hall, rfl, rfl, rfl, rfl, rfl, hf, Or.inl ⟨hbet, j, hpj, h1, h2, h3⟩⟩
        · intro e' s' h1 h2
          dsimp only at h1 h2
          rw [hpop] at h2
          exact Or.inr ⟨i, x0, f0, opts, h, x, code, t, hp, hx0, hf0, hran, rfl, rfl, Or.inr ⟨hall, .ok f, h1, Or.inr ⟨f, rfl, hbet, h2⟩⟩⟩
    · exact Or.inr ⟨i, x0, f0, opts, h, x, code, t, hp, hx0, hf0, hran, rfl, rfl, Or.inr ⟨hall, r, rfl, Or.inl ⟨hpop, hu⟩⟩⟩

omit [IsStrictOrderedRing K] [FloorRing K] in
theorem policyIdx_multi {v : Env K σ} {P : AProb K} {pol : Policy} {s : St K σ} (hn : 1 < P.info.nobj) (hp : pol = .best ∨ pol = .worst) :
    policyIdx v P pol s = (.throws .invalidArgument, s) := by
  rcases hp with rfl | rfl
  · show (Run.lift (bestIdx v.srt v.sq P.info s.pop.f s.pop.tol)) s = _
    cases h : s.pop.f with
    | nil => rfl
    | cons a l => simp only [bestIdx, gt_iff_lt, hn, if_true]; rfl
  · show (Run.lift (worstIdx v.srt v.sq P.info s.pop.f s.pop.tol)) s = _
    cases h : s.pop.f with
    | nil => rfl
    | cons a l => simp only [worstIdx, gt_iff_lt, hn, if_true]; rfl

/-- C127. For every problem, every reaction and every behaviour of Ipopt (it only has to use vectors of the right size), every population, fitness function, options
and policies: `evolve` does what `IpDone` says, or it fails as `IpFailed` says, or Ipopt does not stop asking. There is no undefined behaviour. -/
theorem C127_evolve {v : Env K σ} {rep : K → Prop} (hg : v.g.Lawful rep) {P : AProb K} {G : GProb K} (hG : GradOf P G) (A : IpPar K) (c : IpSetup K)
    (m1 : IpMap A.strs) (m2 : IpMap A.ints) (m3 : IpMap A.nums)
    {lib : List (IpOpt K) → IpSolver K} {better : List (Fl K) → List (Fl K) → Prop} {s : NlSt K σ} (hi : Inv P.info s.st.pop)
    (hsz : s.st.pop.id.length ≤ 2 ^ 64 - 1) (htol : ∀ t ∈ s.st.pop.tol, t ≠ .nan)
    (hb : ∀ f g : List (Fl K), f.length = P.info.nf → g.length = P.info.nf → (better f g ↔ Con.compareFc v.sq f g P.info.nec s.st.pop.tol = .ok true))
    (hr : P.info.nobj = 1 → s.st.pop.id ≠ [] → ∀ pol, pol = A.select ∨ pol = A.replace → pol = .best ∨ pol = .worst → Ranked v P better s.st.pop)
    (hq : ∀ opts h a, lib opts h = .inl a → IpFits P.info a) (hR : ∀ opts h x code, lib opts h = .inr (some x, code) → x.length = P.info.nx)
    (fuel : Nat) :
    wpn (∃ opts h, IpOptsOf P G A s.st.pop.tol opts ∧ Played (lib opts) h ∧ h.length = fuel) (ipEvolve v P G c lib A fuel)
      (fun _ s' => IpDone better v P G c lib A s s') (IpFailed better v P G c lib A s) s := by
  unfold ipEvolve
  rw [wpn_bind, wpn_get]
  by_cases h0 : s.st.pop.id.length = 0
  · rw [if_pos h0, wpn_pure]
    exact Or.inl ⟨List.length_eq_zero_iff.mp h0, rfl⟩
  have hne : s.st.pop.id ≠ [] := fun h => h0 (by rw [h]; rfl)
  rw [if_neg h0, wpn_bind]
  have hpos := hG.nobjPos
  by_cases hmulti : 1 < P.info.nobj ∧ (A.select = .best ∨ A.select = .worst)
  · refine wpn_of_wp ?_
    rw [wp_onSt]
    unfold selectIndividual
    rw [wp_bind]
    show wp _ _ _ _
    unfold wp
    rw [policyIdx_multi hmulti.1 hmulti.2]
    exact Or.inl ⟨rfl, rfl, rfl, rfl, rfl, rfl, Or.inl (Or.inl ⟨rfl, Or.inl hmulti.1⟩)⟩
  refine wpn_of_wp ?_
  rw [wp_onSt]
  refine wp_select (better := better) hg hi hne hsz (fun hpol => ?_) (fun i e x0 f0 hp hx0 hf0 => ?_) (fun hk => ?_)
  · refine hr ?_ hne A.select (Or.inl rfl) hpol
    by_contra h
    exact hmulti ⟨by omega, hpol⟩
  swap
  · exact Or.inl ⟨rfl, rfl, rfl, rfl, rfl, rfl, Or.inr (Or.inr (Or.inr (Or.inl ⟨rfl, hk⟩)))⟩
  have hx0l := hi.wf.dimX x0 (List.mem_of_getElem? hx0)
  obtain ⟨u, hu, _⟩ := hG.made
  obtain ⟨hsane, _, _, _, _, hlb, hub, _⟩ := construct_inv hu
  rw [wpn_bind]
  have hlbs : ∀ l ∈ P.lb, l ≠ .nan := by
    intro l hl
    rw [← hG.lb, hlb] at hl
    obtain ⟨k, hk, rfl⟩ := List.getElem_of_mem hl
    exact (hsane.ordered k _ _ (List.getElem?_eq_getElem hk) (List.getElem?_eq_getElem (by rw [← hsane.len]; exact hk))).1
  have hubs : ∀ l ∈ P.ub, l ≠ .nan := by
    intro l hl
    rw [← hG.ub, hub] at hl
    obtain ⟨k, hk, rfl⟩ := List.getElem_of_mem hl
    exact (hsane.ordered k _ _ (List.getElem?_eq_getElem (by rw [hsane.len]; exact hk)) (List.getElem?_eq_getElem hk)).2.1
  rcases nlGuess_chk (lb := P.lb) (ub := P.ub) (x := x0) hG.bounds (by rw [hx0l, hG.nx]) hlbs hubs with ⟨h2, hin⟩ | ⟨h2, hin⟩
  swap
  · rw [h2]
    exact Or.inl ⟨rfl, rfl, rfl, rfl, rfl, rfl, Or.inr (Or.inr (Or.inr (Or.inr ⟨rfl, i, x0, hp, hx0, hin⟩)))⟩
  rw [h2, wpn_lift_ok, wpn_bind]
  rcases ipMake_cases hG with ⟨N, sp, hpat, hN, hof, hn, -⟩ | ⟨e', h3, hnot⟩
  swap
  · rw [h3]
    exact Or.inl ⟨rfl, rfl, rfl, rfl, rfl, rfl, Or.inl hnot⟩
  rw [hN, wpn_lift_ok, wpn_bind]
  obtain ⟨opts, h4, hopts⟩ := C128_options (P := P) (G := G) (A := A) (tol := s.st.pop.tol) m1 m2 m3 hi.tol htol
  rw [h4, wpn_lift_ok, wpn_bind]
  rcases ipSet_cases c opts [] with ⟨h5, hacc⟩ | ⟨h5, k, o, hk, hacc⟩
  swap
  · rw [h5]
    exact Or.inl ⟨rfl, rfl, rfl, rfl, rfl, rfl, Or.inr (Or.inl ⟨rfl, opts, hopts, k, o, hk, hacc⟩)⟩
  rw [h5, wpn_lift_ok]
  by_cases h6 : c.init opts = false
  · rw [if_pos h6, wpn_throw]
    exact Or.inl ⟨rfl, rfl, rfl, rfl, rfl, rfl, Or.inr (Or.inr (Or.inl ⟨rfl, opts, hopts, h6⟩))⟩
  rw [if_neg h6, wpn_bind]
  refine wpn_of_wp ?_
  rw [wp_modify, wpn_bind]
  refine ((wp_nlOptimize (E := IpFailed better v P G c lib A s) (fun h s1 => IpHistory v P G A.verb x0 s s1 h)
    (fun h a s1 hpl ha hh => ip_guarded hG hN hi.tol hh a (hq opts h a ha)) fuel [] _ (Played.nil _) ?_).fuel ?_).mono ?_ (fun _ _ h => h)
  · exact IpHistory.nil ⟨rfl, List.prefix_rfl, List.prefix_rfl, List.prefix_rfl, rfl, rfl⟩ rfl rfl rfl rfl
  · rintro ⟨h', h7, h8⟩
    exact ⟨opts, h', hopts, h7, by rw [h8]; simp⟩
  · rintro ⟨x, code⟩ t ⟨h', h7, h8, hh⟩
    dsimp only
    refine wpn_of_wp (ip_finish hg hG hi hne hsz hn hb (hr hn hne A.replace (Or.inr rfl)) hp hx0 hf0 (opts := opts) (h := h')
      ⟨hin, hopts, hacc, by simpa using h6, h7, ?_, hh⟩ ?_)
    · cases x with
      | none => exact Or.inr ⟨h8, rfl⟩
      | some x => exact Or.inl h8
    · cases x with
      | none => simp
      | some x => exact hR opts h' x code h8

/-- C127 (best individual). With the policy "best" for the selection, `evolve` never makes the best individual worse, whichever individual is overwritten: there is one in the new
population that none of the old ones beats. -/
theorem C127_best {v : Env ℝ σ} {P : AProb ℝ} {G : GProb ℝ} {A : IpPar ℝ} {c : IpSetup ℝ} {lib : List (IpOpt ℝ) → IpSolver ℝ} {s s' : NlSt ℝ σ}
    (hi : Inv P.info s.st.pop) (hn : P.info.nobj = 1) (hne : s.st.pop.id ≠ []) (hA : A.select = .best)
    (h : IpDone (FcBetter P.info.nec s.st.pop.tol) v P G c lib A s s') :
    ∃ g ∈ s'.st.pop.f, ∀ f ∈ s.st.pop.f, ¬ FcBetter P.info.nec s.st.pop.tol f g := by
  rcases h with ⟨h, _⟩ | ⟨i, x0, f0, opts, hh, x, code, f, t, hp, hx0, hf0, _, _, _, _, _, _, _, hfl, hres⟩
  · exact absurd h hne
  rw [hA] at hp
  obtain ⟨f1, hf1, hbest⟩ := hp
  rw [hf0, Option.some.injEq] at hf1
  subst hf1
  have args : ∀ f : List (Fl ℝ), f.length = P.info.nf → FcArgs P.info.nec s.st.pop.tol f := by
    intro f hf
    have h1 := hi.tol
    refine ⟨?_, ?_⟩ <;> simp only [Info.nf, Info.nc] at * <;> omega
  rcases hres with ⟨hb, j, hj, _, _, hset⟩ | ⟨_, hpop⟩
  · have hjl : j < s.st.pop.f.length := by rw [hi.wf.fs]; exact picked_lt hi.wf hj
    refine ⟨f, by rw [hset]; exact List.mem_set hjl f, fun g hg hgf => ?_⟩
    exact hbest g hg ((C11_strict_partial_order_partial P.info.nec s.st.pop.tol).2.2 g f f0 (args g (hi.wf.dimF g hg)) (args f hfl)
      (args f0 (hi.wf.dimF f0 (List.mem_of_getElem? hf0))) hgf hb)
  · exact ⟨f0, by rw [hpop]; exact List.mem_of_getElem? hf0, hbest⟩

/-! ### Examples -/

/-- two variables in [1, 10], objective x0·x1, one equality x0² = x1², one inequality x1² ≤ 4 -/
def ipDemo : AProb ℚ :=
  ⟨⟨2, 1, 1, 1, false⟩, [.fin 1, .fin 1], [.fin 10, .fin 10], 0, fun _ x => match x with
    | [a, b] => .ok [Fl.mul a b, Fl.sub (Fl.mul a a) (Fl.mul b b), Fl.add (Fl.mul b b) (.fin (-4))]
    | _ => .error .domainError⟩

/-- its derivatives and hessians, sparse -/
def ipDemoG : GProb ℚ :=
  ⟨⟨[.fin 1, .fin 1], [.fin 10, .fin 10], 0, 1, 1, 1, 5, [1, 2, 1], [.fin 0, .fin 0]⟩, true, true, some [(0, 0), (0, 1), (1, 0), (1, 1), (2, 1)],
    some [[(1, 0)], [(0, 0), (1, 1)], [(1, 1)]],
    fun _ x => match x with
      | [a, b] => .ok [b, a, Fl.mul (.fin 2) a, Fl.mul (.fin (-2)) b, Fl.mul (.fin 2) b]
      | _ => .error .domainError,
    fun _ x => match x with
      | [_, _] => .ok [[.fin 1], [.fin 2, .fin (-2)], [.fin 2]]
      | _ => .error .domainError⟩

theorem ipDemo_grad : GradOf ipDemo ipDemoG where
  made := ⟨⟨[.fin 1, .fin 1], [.fin 10, .fin 10], 0, 1, 1, 1, some [(0, 0), (0, 1), (1, 0), (1, 1), (2, 1)], some [[(1, 0)], [(0, 0), (1, 1)], [(1, 1)]]⟩,
    by decide +kernel, rfl, rfl⟩
  lb := rfl
  ub := rfl
  nx := rfl
  nobj := rfl
  nec := rfl
  nic := rfl

/-- two individuals -/
def ipDemoSt : NlSt ℚ (List ℚ) :=
  ⟨⟨⟨[4, 5], [[.fin 3, .fin 3], [.fin 2, .fin 2]], [[.fin 9, .fin 0, .fin 5], [.fin 4, .fin 0, .fin 0]], [], [], [.fin (1 / 2), .fin (1 / 4)], fun n => n, []⟩, [1], []⟩,
    [], [], none, 0, [], none, []⟩

theorem ipDemo_inv : Inv ipDemo.info ipDemoSt.st.pop where
  wf := ⟨rfl, rfl, by decide +kernel, by decide +kernel⟩
  ch := Or.inl ⟨rfl, rfl⟩
  tol := rfl

/-- what the constructor stores: the hessian of the lagrangian is the union of the three patterns -/
def ipDemoN : IpNlp := ⟨[(0, 0), (0, 1)], [[(1, 0)], [(0, 0), (1, 1)], [(1, 1)]], [(0, 0), (0, 1), (1, 1)], [(0, 0), (1, 0), (1, 1)]⟩

theorem ipDemo_make : ipMake ipDemo ipDemoG = .ok ipDemoN := by decide +kernel

section
attribute [local irreducible] wp
example := C126_told (v := algDemoEnv) ipDemo_grad ipDemo_make 1 [.fin 3, .fin 3] (s0 := ipDemoSt) (s := ipDemoSt) (NlExt.refl _) rfl
  (.hess [.fin 3, .fin 3] (.fin 3) [.fin 5, .fin 7]) ⟨rfl, rfl⟩
end

/-- what Ipopt gets: the jacobian at (3, 4), and the hessian of the lagrangian with the factor 3 and the multipliers 5 and 7 -/
example : (ipBody algDemoEnv ipDemo ipDemoG 1 ipDemoN [.fin 3, .fin 3] (.jac [.fin 3, .fin 4]) ipDemoSt).1 = .ok (.values [.fin 6, .fin (-8), .fin 8]) := by decide +kernel
example : (ipBody algDemoEnv ipDemo ipDemoG 1 ipDemoN [.fin 3, .fin 3] (.gradF [.fin 3, .fin 4]) ipDemoSt).1 = .ok (.values [.fin 4, .fin 3]) := by decide +kernel
example : (ipBody algDemoEnv ipDemo ipDemoG 1 ipDemoN [.fin 3, .fin 3] (.hess [.fin 3, .fin 4] (.fin 3) [.fin 5, .fin 7]) ipDemoSt).1 =
    .ok (.values [.fin 10, .fin 3, .fin 4]) := by decide +kernel
example : (ipBody algDemoEnv ipDemo ipDemoG 1 ipDemoN [.fin 3, .fin 3] .bounds ipDemoSt).1 =
    .ok (.bounds [.fin 1, .fin 1] [.fin 10, .fin 10] [.fin 0, .ninf] [.fin 0, .fin 0]) := by decide +kernel

/-- the last entry: 5·(-2) + 7·2 -/
example : Fl.fin (4 : ℚ) = .fin (3 * (fun c : Nat => [0, -2, 2].getD c (0 : ℚ)) 0 +
    ((List.range 2).map (fun c => [5, 7].getD c (0 : ℚ) * (fun c : Nat => [0, -2, 2].getD c (0 : ℚ)) (c + 1))).sum) :=
  C126_lagrangian (G := ipDemoG) (hp := [[(1, 0)], [(0, 0), (1, 1)], [(1, 1)]]) (H := [[.fin 1], [.fin 2, .fin (-2)], [.fin 2]]) (o := 3) (lam := [5, 7]) (i := 1) (j := 1) (n := 2)
    (e := .fin 4) (by decide +kernel)
    ⟨.fin (-10), [(1, 1)], [.fin 2], .fin 7, ⟨.fin 0, [(0, 0), (1, 1)], [.fin 2, .fin (-2)], .fin 5, ⟨[(1, 0)], [.fin 1], rfl, rfl, Or.inr ⟨by decide, rfl⟩⟩, rfl, rfl, rfl,
      Or.inl ⟨.fin (-2), ⟨1, rfl, rfl⟩, Or.inr (by decide +kernel)⟩⟩, rfl, rfl, rfl, Or.inl ⟨.fin 2, ⟨0, rfl, rfl⟩, Or.inr (by decide +kernel)⟩⟩
    (fun c => [0, -2, 2].getD c 0)
    (fun c sp hc h1 h2 h3 => by
      match c, h1 with
      | 0, _ => cases h2; cases h3; exact Or.inr ⟨by decide, rfl⟩
      | 1, _ => cases h2; cases h3; exact Or.inl ⟨1, rfl, rfl⟩
      | 2, _ => cases h2; cases h3; exact Or.inl ⟨0, rfl, rfl⟩
      | c + 3, h => omega)

/-- the user sets a tolerance for the optimality and lets Ipopt print -/
def ipDemoPar (a b : Policy) : IpPar ℚ := ⟨a, b, 1, [("linear_solver", "ma57"), ("sb", "yes")], [("print_level", 5)], [("tol", .fin (1 / 8))]⟩

example : ipOptions ipDemo ipDemoG (ipDemoPar .best .best) ipDemoSt.st.pop.tol =
    .ok [.num "constr_viol_tol" (.fin (1 / 4)), .str "linear_solver" "ma57", .str "sb" "yes", .num "tol" (.fin (1 / 8)), .int "print_level" 5] := by decide +kernel

theorem ipDemo_maps : IpMap (ipDemoPar .best .best).strs ∧ IpMap (ipDemoPar .best .best).ints ∧ IpMap (ipDemoPar .best .best).nums :=
  ⟨by unfold IpMap ipDemoPar; decide +kernel, List.pairwise_singleton _ _, List.pairwise_singleton _ _⟩

example := C128_options (P := ipDemo) (G := ipDemoG) (A := ipDemoPar .best .best) (tol := ipDemoSt.st.pop.tol) ipDemo_maps.1 ipDemo_maps.2.1 ipDemo_maps.2.2 rfl (by decide +kernel)

example := C128_set "max_iter" 7 (l := [("file_print_level", 3), ("print_level", 5)]) (by unfold IpMap; decide +kernel)
example := C128_set_all (m := [("max_iter", 7), ("print_level", 0)]) (l := [("file_print_level", 3), ("print_level", 5)]) (by unfold IpMap; decide +kernel) (by unfold IpMap; decide +kernel)

/-- Ipopt accepts everything -/
def ipDemoSetup : IpSetup ℚ := ⟨fun _ _ => true, fun _ => true⟩

/-- asks for the objective and the hessian of the lagrangian and ends with `x` -/
def ipDemoLib (x : Option (List (Fl ℚ))) : List (IpOpt ℚ) → IpSolver ℚ := fun _ h =>
  match h.length with
  | 0 => .inl (.f [.fin 3, .fin 3])
  | 1 => .inl (.hess [.fin 3, .fin 3] (.fin 3) [.fin 5, .fin 7])
  | 2 => .inl (.f [.fin 2, .fin 3])
  | _ => .inr (x, 0)

theorem ipDemoLib_asks (x : Option (List (Fl ℚ))) : ∀ opts h a, ipDemoLib x opts h = .inl a → IpFits ipDemo.info a := by
  intro opts h a ha
  unfold ipDemoLib at ha
  split at ha
  · cases ha; rfl
  · cases ha; exact ⟨rfl, rfl⟩
  · cases ha; rfl
  · cases ha

section
attribute [local irreducible] wpn
example := C127_evolve (v := algDemoEnv) demoGen_lawful ipDemo_grad (ipDemoPar (.index 0) (.index 0)) ipDemoSetup ipDemo_maps.1 ipDemo_maps.2.1 ipDemo_maps.2.2
  (lib := ipDemoLib (some [.fin 1, .fin 1]))
  (better := fun f g => Con.compareFc algDemoEnv.sq f g ipDemo.info.nec ipDemoSt.st.pop.tol = .ok true) (s := ipDemoSt) ipDemo_inv (by decide) (by decide +kernel)
  (fun _ _ _ _ => Iff.rfl) (fun _ _ pol h => by rcases h with rfl | rfl <;> simp [ipDemoPar]) (ipDemoLib_asks _)
  (fun opts h x code h1 => by unfold ipDemoLib at h1; split at h1 <;> cases h1; rfl) 10
end

example : (ipEvolve algDemoEnv ipDemo ipDemoG ipDemoSetup (ipDemoLib (some [.fin 1, .fin 1])) (ipDemoPar (.index 0) (.index 0)) 10 ipDemoSt).1 = .ok () := by decide +kernel
example : (ipEvolve algDemoEnv ipDemo ipDemoG ipDemoSetup (ipDemoLib (some [.fin 1, .fin 1])) (ipDemoPar (.index 0) (.index 0)) 10 ipDemoSt).2.st.pop.x =
    [[.fin 1, .fin 1], [.fin 2, .fin 2]] := by decide +kernel
/-- (the environment of the example has the identity as square root) -/
example : (ipEvolve algDemoEnv ipDemo ipDemoG ipDemoSetup (ipDemoLib (some [.fin 1, .fin 1])) (ipDemoPar (.index 0) (.index 0)) 10 ipDemoSt).2.mlog =
    [⟨1, .fin 9, 1, .fin (361 / 16), false⟩, ⟨2, .fin 6, 2, .fin (685 / 16), false⟩] := by decide +kernel

/-- C127 (a finding). If Ipopt stops without calling `finalize_solution`, the vector of zeros is taken for its solution, also if it is outside the bounds: here it overwrites the best individual
of a problem with the bounds [1, 10]. -/
theorem C127_zero :
    (ipEvolve algDemoEnv ipDemo ipDemoG ipDemoSetup (ipDemoLib none) (ipDemoPar (.index 1) (.index 1)) 10 ipDemoSt).1 = .ok () ∧
    (ipEvolve algDemoEnv ipDemo ipDemoG ipDemoSetup (ipDemoLib none) (ipDemoPar (.index 1) (.index 1)) 10 ipDemoSt).2.st.pop.x = [[.fin 3, .fin 3], [.fin 0, .fin 0]] ∧
    ¬ NlInside ipDemo.lb ipDemo.ub [.fin 0, .fin 0] := by
  refine ⟨by decide +kernel, by decide +kernel, fun h => ?_⟩
  have := (h 0 (.fin 1) (.fin 10) (.fin 0) rfl rfl rfl).2.1
  revert this
  decide +kernel

/-- C127 (a finding). The solution is compared with the *selected* individual, but another one can be overwritten: here the best one, by an infeasible one. -/
theorem C127_replaces_better :
    (ipEvolve algDemoEnv ipDemo ipDemoG ipDemoSetup (ipDemoLib (some [.fin (5 / 2), .fin (5 / 2)])) (ipDemoPar (.index 0) (.index 1)) 10 ipDemoSt).2.st.pop.f =
        [[.fin 9, .fin 0, .fin 5], [.fin (25 / 4), .fin 0, .fin (9 / 4)]] ∧
      Con.compareFc algDemoEnv.sq [.fin 4, .fin 0, .fin 0] [.fin (25 / 4), .fin 0, .fin (9 / 4)] 1 ipDemoSt.st.pop.tol = .ok true := by
  refine ⟨?_, ?_⟩ <;> decide +kernel

end Verif.Props
