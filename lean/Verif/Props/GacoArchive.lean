import Verif.Props.GacoAnts

/-!
# C116-C118: the solution archive of `gaco`, the members that last, batch evaluation
-/

set_option autoImplicit false

namespace Verif.Props

open Verif Run Prob Pop Alg

variable {K σ : Type} [Field K] [LinearOrder K]

/-- `T` are the `n` smallest of the numbers in `S`, in order. -/
structure KBest (n : Nat) (S T : List K) : Prop where
  len : T.length = n
  sorted : T.Pairwise (· ≤ ·)
  rest : ∃ rest, (T ++ rest).Perm S ∧ ∀ t ∈ T, ∀ r ∈ rest, t ≤ r

omit [Field K] in
/-- The best of two lists are among the best of each. -/
theorem KBest.merge {n : Nat} {A B TA TB T : List K} (hA : KBest n A TA) (hB : KBest n B TB) (hT : KBest n (TA ++ TB) T) : KBest n (A ++ B) T := by
  obtain ⟨ra, pa, la⟩ := hA.rest
  obtain ⟨rb, pb, lb⟩ := hB.rest
  obtain ⟨rt, pt, lt⟩ := hT.rest
  refine ⟨hT.len, hT.sorted, rt ++ (ra ++ rb), ?_, ?_⟩
  · have h1 : (T ++ (rt ++ (ra ++ rb))).Perm ((TA ++ TB) ++ (ra ++ rb)) := by
      rw [← List.append_assoc]
      exact pt.append_right _
    refine h1.trans ?_
    have h2 : ((TA ++ TB) ++ (ra ++ rb)).Perm ((TA ++ ra) ++ (TB ++ rb)) := by
      rw [List.append_assoc, List.append_assoc]
      refine List.Perm.append_left _ ?_
      rw [← List.append_assoc, ← List.append_assoc]
      exact (List.perm_append_comm).append_right _
    exact h2.trans (pa.append pb)
  · -- if some number left out before were smaller than `t`, all `n` numbers of that list would be
    have key : ∀ (U r : List K), U.length = n → (∀ u ∈ U, ∀ x ∈ r, u ≤ x) → (∀ p : K → Bool, U.countP p ≤ (TA ++ TB).countP p) → ∀ t ∈ T, ∀ x ∈ r, t ≤ x := by
      intro U r hU hle hcount t ht x hx
      by_contra hlt
      have hlt' := not_le.mp hlt
      have h1 : U.countP (fun u => decide (u < t)) = n := by
        rw [← hU, List.countP_eq_length]
        intro u hu
        exact decide_eq_true ((hle u hu x hx).trans_lt hlt')
      have h2 := hcount (fun u => decide (u < t))
      rw [h1, ← pt.countP_eq, List.countP_append] at h2
      have h3 : rt.countP (fun u => decide (u < t)) = 0 := by
        rw [List.countP_eq_zero]
        intro u hu
        simpa using lt t ht u hu
      have h4 : T.countP (fun u => decide (u < t)) < T.length := by
        refine lt_of_le_of_ne List.countP_le_length ?_
        intro he
        have := (List.countP_eq_length.mp he) t ht
        simp at this
      rw [hT.len] at h4
      omega
    intro t ht r hr
    rcases List.mem_append.mp hr with hr | hr
    · exact lt t ht r hr
    rcases List.mem_append.mp hr with hr | hr
    · exact key TA ra hA.len la (fun p => by rw [List.countP_append]; omega) t ht r hr
    · exact key TB rb hB.len lb (fun p => by rw [List.countP_append]; omega) t ht r hr

omit [Field K] in
theorem KBest.keep {n : Nat} {A B TA : List K} (hA : KBest n A TA) (h : ∀ t ∈ TA, ∀ b ∈ B, t ≤ b) : KBest n (A ++ B) TA := by
  obtain ⟨ra, pa, la⟩ := hA.rest
  refine ⟨hA.len, hA.sorted, ra ++ B, by rw [← List.append_assoc]; exact pa.append_right _, ?_⟩
  intro t ht r hr
  rcases List.mem_append.mp hr with hr | hr
  · exact la t ht r hr
  · exact h t ht r hr

theorem kbest_of_sorted {heads : List (Fl K)} {vals : List K}
    (hlt : ∀ i j, i < vals.length → j < vals.length → (gaLess heads i j = true ↔ vals.getD i 0 < vals.getD j 0)) {sl : List Nat}
    (hs : IsSorted (gaLess heads) (List.range vals.length) sl) {ker : Nat} (hk : ker ≤ vals.length) : KBest ker vals ((sl.take ker).map (fun j => vals.getD j 0)) := by
  have hsl : sl.length = vals.length := by rw [hs.perm.length_eq, List.length_range]
  have idx : ∀ j ∈ sl, j < vals.length := fun j hj => List.mem_range.mp (hs.perm.mem_iff.mp hj)
  have hp : (sl.map (fun j => vals.getD j 0)).Pairwise (· ≤ ·) := by
    rw [List.pairwise_map]
    refine hs.sorted.imp_of_mem ?_
    intro a b ha hb h
    by_contra hn
    rw [(hlt b a (idx b hb) (idx a ha)).mpr (not_le.mp hn)] at h
    cases h
  have e : (sl.take ker).map (fun j => vals.getD j 0) ++ (sl.drop ker).map (fun j => vals.getD j 0) = sl.map (fun j => vals.getD j 0) := by
    rw [← List.map_append, List.take_append_drop]
  rw [← e] at hp
  obtain ⟨h1, h2, h3⟩ := List.pairwise_append.mp hp
  refine ⟨by simp; omega, h1, _, ?_, h3⟩
  rw [e]
  refine (hs.perm.map _).trans ?_
  have : (List.range vals.length).map (fun j => vals.getD j 0) = vals := by
    apply List.ext_getElem
    · simp
    · intro i h1 h2
      rw [List.getElem_map, List.getElem_range, List.getD_eq_getElem _ _ h2]
  rw [this]

theorem gaKeep_zero [IsStrictOrderedRing K] {op : Fl.Ops K} {ker : Nat} {tp : List (Fl K)} (h0 : 0 < tp.length) {slp nsl : List Nat} (h : gaKeep op ker (.fin 0) tp slp = .ok nsl) : nsl = List.range tp.length := by
  have step : ∀ (c : Nat × List Nat) (j : Nat) (r : Nat × List Nat), gaKeepStep op (.fin 0) tp slp c j = .ok r → r.2 = c.2 ++ [j] := by
    intro c j r h
    unfold gaKeepStep at h
    obtain ⟨a, -, h⟩ := bind_ok_inv h
    obtain ⟨pa, -, h⟩ := bind_ok_inv h
    obtain ⟨b, -, h⟩ := bind_ok_inv h
    obtain ⟨pb, -, h⟩ := bind_ok_inv h
    have hz : ∀ x : Fl K, Fl.lt (Fl.abs x) (.fin 0) = false := by
      intro x
      cases x with
      | fin a =>
        simp only [Fl.abs, Fl.lt]
        split
        · rename_i h; simpa using h.le
        · rename_i h; simpa using h
      | _ => rfl
    rw [hz, if_neg (by simp)] at h
    cases h
    rfl
  have fold : ∀ (l : List Nat) (c r : Nat × List Nat), l.foldlM (gaKeepStep op (.fin 0) tp slp) c = .ok r → r.2 = c.2 ++ l := by
    intro l
    induction l with
    | nil => intro c r h; cases h; simp
    | cons a l ih =>
      intro c r h
      rw [List.foldlM_cons] at h
      obtain ⟨c1, h1, h2⟩ := bind_ok_inv h
      rw [ih c1 r h2, step c a c1 h1]
      simp
  unfold gaKeep at h
  obtain ⟨a, -, h⟩ := bind_ok_inv h
  obtain ⟨c, h1, h⟩ := bind_ok_inv h
  cases h
  rw [fold _ _ _ h1]
  have : tp.length = 1 + (tp.length - 1) := by omega
  conv_rhs => rw [this, List.range_eq_range', List.range'_append_1.symm.trans rfl]
  rfl

omit [Field K] in
theorem KBest.perm {n : Nat} {A B T : List K} (h : KBest n A T) (hp : A.Perm B) : KBest n B T := by
  obtain ⟨r, p, l⟩ := h.rest
  exact ⟨h.len, h.sorted, r, p.trans hp, l⟩

section
variable [IsStrictOrderedRing K]

/-- a fitness vector without constraints -/
def gaOne (y : K) : List (Fl K) := [.fin y]

omit [Field K] [LinearOrder K] [IsStrictOrderedRing K] in
theorem gaOnes_of {l : List (List (Fl K))} (h : ∀ f ∈ l, f.length = 1 ∧ AllFin f) : ∃ V : List K, l = V.map gaOne := by
  induction l with
  | nil => exact ⟨[], rfl⟩
  | cons f l ih =>
    obtain ⟨V, hV⟩ := ih (fun g hg => h g (by simp [hg]))
    obtain ⟨h1, h2⟩ := h f (by simp)
    obtain ⟨a, rfl⟩ := List.length_eq_one_iff.mp h1
    obtain ⟨y, rfl⟩ := h2 a (by simp)
    exact ⟨y :: V, by rw [hV]; rfl⟩

/-- Without constraints the penalty is strictly increasing in the objective. -/
theorem gaPen_one {v : GaEnv K σ} {R X : K → K} (hF : GaFns v R X) {P : AProb K} (hnobj : P.info.nobj = 1) (hnc : P.info.nc = 0) {tol : List (Fl K)} (ht : tol.length = P.info.nc)
    (o : K) : ∃ p : K → K, (∀ y, gaPenOf v P tol (.fin o) (gaOne y) = .fin (p y)) ∧ ∀ y z, p y < p z ↔ y < z := by
  have htn : tol = [] := List.length_eq_zero_iff.mp (by omega)
  have hnf : P.info.nf = 1 := by simp only [Info.nf]; simp only [Info.nc] at hnc ⊢; omega
  have key : ∀ y : K, gaPenOf v P tol (.fin o) (gaOne y) = .fin (gaPenK R o y 0) := by
    intro y
    obtain ⟨y', r, h1, h2, h3, h4, -⟩ := gaPenOf_exact hF hnobj ht (f := gaOne y) (by rw [hnf]; rfl) (by rw [htn]; intro w hw; simp at hw)
      (by intro w hw; exact ⟨y, by simpa [gaOne] using hw⟩)
    have hy : y' = y := by simpa [gaOne] using h1.symm
    have hr : r = 0 := h3.mpr (fun j hj => absurd hj (by omega))
    rw [h4 o, hy, hr]
  exact ⟨_, key, fun y z => (C114_penalty hF o y 0 le_rfl).2.2 z⟩

/-- The archive after `update_sol_archive`, with `acc = 0` and without constraints, has the best of all individuals so far. -/
theorem gaK_archived {v : GaEnv K σ} {R X : K → K} (hF : GaFns v R X) {P : AProb K} (hnobj : P.info.nobj = 1) (hnc : P.info.nc = 0) {tol : List (Fl K)} (ht : tol.length = P.info.nc)
    {A : Gaco K} (hker : 0 < A.ker) (hacc : A.acc = .fin 0) {n gen : Nat} (hk : A.ker ≤ n) {xs fs : List (List (Fl K))} (hp : GaPop P n xs fs) {V : List K} (hV : fs = V.map gaOne)
    {o : K} {ps : List (Fl K)} (hps : ps = fs.map (gaPenOf v P tol (.fin o))) {sl : List Nat} (hs : IsSorted (gaLess ps) (List.range n) sl)
    {m m' : GaMem K} {arch arch' : List (List (Fl K))} (ha : GaArch P A.ker arch) {SV : List K}
    (h : GaArchived v A gen xs fs ps sl m arch m' arch')
    (hold : ¬ (gen = 1 ∧ m.counter < 2) → ∃ T, KBest A.ker SV T ∧ arch.map (fun r => (gaInd P r).2) = T.map gaOne ∧
      ∀ r ∈ arch, gaHead r = gaPenOf v P tol (.fin o) (gaInd P r).2) :
    ∃ T, KBest A.ker ((if gen = 1 ∧ m.counter < 2 then [] else SV) ++ V) T ∧ arch'.map (fun r => (gaInd P r).2) = T.map gaOne := by
  obtain ⟨p, hp1, hp2⟩ := gaPen_one hF hnobj hnc ht o
  have hVl : V.length = n := by rw [← hp.fl, hV, List.length_map]
  have hpsV : ps = V.map (fun y => .fin (p y)) := by
    rw [hps, hV, List.map_map]
    exact List.map_congr_left fun y _ => hp1 y
  have less : ∀ (W : List K) (i j : Nat), i < W.length → j < W.length → (gaLess (W.map (fun y => Fl.fin (p y))) i j = true ↔ W.getD i 0 < W.getD j 0) := by
    intro W i j hi hj
    unfold gaLess
    rw [getD_map_lt hi 0, getD_map_lt hj 0, Fl.lessThanF_iff, ← hp2]
    exact Fl.fin_lt_fin
  have hsl : sl.length = n := by rw [hs.perm.length_eq, List.length_range]
  have idx : ∀ j ∈ sl, j < n := fun j hj => List.mem_range.mp (hs.perm.mem_iff.mp hj)
  have hN : KBest A.ker V ((sl.take A.ker).map (fun j => V.getD j 0)) := by
    subst hVl
    rw [hpsV] at hs
    exact kbest_of_sorted (less V) hs hk
  have hnew : ((sl.take A.ker).map (gaRowOf xs fs ps)).map (fun r => (gaInd P r).2) = ((sl.take A.ker).map (fun j => V.getD j 0)).map gaOne := by
    rw [List.map_map, List.map_map]
    refine List.map_congr_left fun j hj => ?_
    have hj := idx j (List.mem_of_mem_take hj)
    show (gaInd P (gaRowOf xs fs ps j)).2 = gaOne (V.getD j 0)
    rw [(gaRowOf_ind hp ps hj).1, hV]
    exact getD_map_lt (by omega) 0
  cases h with
  | fill hc =>
    rw [if_pos hc, List.nil_append]
    exact ⟨_, hN, hnew⟩
  | merge hc hlt hm =>
    rw [if_neg hc]
    rename_i slp nsl
    obtain ⟨T, hT, hTa, hTh⟩ := hold hc
    generalize hNV : (sl.take A.ker).map (fun j => V.getD j 0) = NV at hN hnew
    generalize hcs : (sl.take A.ker).map (gaRowOf xs fs ps) ++ arch = cands at hm
    have hcv : cands.map (fun r => (gaInd P r).2) = (NV ++ T).map gaOne := by rw [← hcs, List.map_append, List.map_append, hnew, hTa]
    have hcl : (NV ++ T).length = 2 * A.ker := by rw [List.length_append, hN.len, hT.len]; omega
    have hch : cands.map gaHead = (NV ++ T).map (fun y => .fin (p y)) := by
      have : cands.map gaHead = (cands.map (fun r => (gaInd P r).2)).map (gaPenOf v P tol (.fin o)) := by
        rw [List.map_map]
        refine List.map_congr_left fun r hr => ?_
        rw [← hcs] at hr
        rcases List.mem_append.mp hr with hr | hr
        · obtain ⟨j, hj, rfl⟩ := List.mem_map.mp hr
          have hj := idx j (List.mem_of_mem_take hj)
          show ps.getD j .nan = gaPenOf v P tol (.fin o) (gaInd P (gaRowOf xs fs ps j)).2
          rw [(gaRowOf_ind hp ps hj).1, hps]
          exact getD_map_lt (by rw [hp.fl]; exact hj) []
        · exact hTh r hr
      rw [this, hcv, List.map_map]
      exact List.map_congr_left fun y _ => hp1 y
    have hks := hm.sorted
    have hkp := hm.keep
    rw [hacc] at hkp
    have hclen : cands.length = 2 * A.ker := by
      have := congrArg List.length hcv
      simpa [hcl] using this.trans (by simp : ((NV ++ T).map (gaOne (K := K))).length = (NV ++ T).length)
    have hnsl : nsl = List.range (2 * A.ker) := by
      rw [gaKeep_zero (by rw [List.length_map, hclen]; omega) hkp, List.length_map, hclen]
    rw [hch, ← hcl] at hks
    have hK := kbest_of_sorted (less _) hks (ker := A.ker) (by omega)
    refine ⟨_, (hN.merge hT hK).perm List.perm_append_comm, ?_⟩
    have hslp : slp.length = 2 * A.ker := by rw [hks.perm.length_eq, List.length_range, hcl]
    apply List.ext_getElem
    · simp [hm.len]; omega
    · intro i h1 h2
      have hi : i < A.ker := by simpa [hm.len] using h1
      have hrow := hm.rows i hi
      have hb : slp[i]'(by omega) < (NV ++ T).length := List.mem_range.mp (hks.perm.mem_iff.mp (List.getElem_mem _))
      have hni : nsl.getD i 0 = i := by
        rw [hnsl, List.getD_eq_getElem _ _ (by rw [List.length_range]; omega), List.getElem_range]
      rw [if_pos (by rw [hnsl, List.length_range]; omega), hni,
        List.getD_eq_getElem _ _ (by omega : i < slp.length), List.getElem?_eq_getElem (by rw [hm.len]; exact hi),
        List.getElem?_eq_getElem (by rw [hclen, ← hcl]; exact hb)] at hrow
      rw [List.getElem_map, Option.some.inj hrow, List.getElem_map, List.getElem_map, List.getElem_take, List.getD_eq_getElem _ _ hb]
      have e := congrArg (fun l => l[slp[i]'(by omega)]?) hcv
      rw [List.getElem?_eq_getElem (by rw [List.length_map, hclen, ← hcl]; exact hb), List.getElem?_eq_getElem (by rw [List.length_map]; exact hb)] at e
      have e' := Option.some.inj e
      rw [List.getElem_map, List.getElem_map] at e'
      exact e'
  | keep hc hlt =>
    rw [if_neg hc]
    obtain ⟨T, hT, hTa, hTh⟩ := hold hc
    refine ⟨T, hT.keep ?_, hTa⟩
    intro t htT b hb
    by_contra hlt'
    have hbt := not_le.mp hlt'
    -- the last row
    have hl : A.ker - 1 < T.length := by rw [hT.len]; omega
    have hla : A.ker - 1 < arch.length := by rw [ha.1]; omega
    have htl : t ≤ T[A.ker - 1] := by
      obtain ⟨i, hi, rfl⟩ := List.getElem_of_mem htT
      rcases Nat.lt_or_ge i (A.ker - 1) with h | h
      · exact List.pairwise_iff_getElem.mp hT.sorted i _ hi hl h
      · have : i = A.ker - 1 := by have := hT.len; omega
        subst this
        exact le_rfl
    have hlast : gaHead (arch.getD (A.ker - 1) []) = .fin (p T[A.ker - 1]) := by
      rw [List.getD_eq_getElem _ _ hla, hTh _ (List.getElem_mem hla), ← hp1]
      have e := congrArg (fun l => l[A.ker - 1]?) hTa
      rw [List.getElem?_eq_getElem (by rw [List.length_map]; exact hla), List.getElem?_eq_getElem (by rw [List.length_map]; exact hl)] at e
      have := Option.some.inj e
      rw [List.getElem_map, List.getElem_map] at this
      rw [this]
    obtain ⟨j, hj, rfl⟩ := List.getElem_of_mem hb
    have h0 : sl.getD 0 0 < V.length := by
      rw [List.getD_eq_getElem _ _ (by omega), hVl]
      exact idx _ (List.getElem_mem _)
    have hmin := gaSorted_le hs (j := j) (by omega)
    rw [hpsV, getD_map_lt h0 0] at hlt
    rw [hpsV, getD_map_lt h0 0, getD_map_lt hj 0, Fl.fin_le_fin, List.getD_eq_getElem _ _ hj] at hmin
    rw [hlast] at hlt
    have h1 : p T[A.ker - 1] ≤ p (V.getD (sl.getD 0 0) 0) := by simpa [Fl.lt] using hlt
    exact absurd ((hp2 _ _).mpr (hbt.trans_le htl)) (not_lt.mpr (h1.trans hmin))

theorem gaSteps_kbest {v : GaEnv K σ} {R X : K → K} (hF : GaFns v R X) {P : AProb K} (hnobj : P.info.nobj = 1) (hnc : P.info.nc = 0) {A : Gaco K} (hker : 0 < A.ker)
    (hacc : A.acc = .fin 0) (hmem : A.memory = false) {tol : List (Fl K)}
    (ht : tol.length = P.info.nc) (htf : AllFin tol) {n : Nat} (hk : A.ker ≤ n) {a : GaState K} (hag : a.g = 0) (hac : a.m.counter = 0) {o : K} (hao : a.m.oracle = .fin o)
    (hfs : ∀ f ∈ a.fs, AllFin f) :
    ∀ (k : Nat) (b : GaState K) (G : List (List (List (Fl K) × List (Fl K)))), Steps (GaFull v P A tol n) k a b → G.length = k → (∀ g ∈ G, g.length = n) →
      b.evs = a.evs ++ asCalls G.flatten → (∀ p ∈ G.flatten, AllFin p.2) → 0 < k →
      ∃ SV T : List K, a.fs ++ G.dropLast.flatten.map Prod.snd = SV.map gaOne ∧ KBest A.ker SV T ∧ b.arch.map (fun r => (gaInd P r).2) = T.map gaOne := by
  have hnf : P.info.nf = 1 := by simp only [Info.nf]; simp only [Info.nc] at hnc ⊢; omega
  intro k
  induction k with
  | zero => intro _ _ _ _ _ _ _ h; exact absurd h (by omega)
  | succ k ih =>
    intro c G h hl hn hev hfin _
    cases h with
    | snoc h hS1 =>
      rename_i b
      obtain ⟨hbg, hbc, hbst, G0, hl0, hn0, he0, hpop0, -⟩ := gaSteps_gens hk hag _ _ h
      obtain ⟨hpa, hpb, haa, -, ps, sl, m1, arch1, sig, check, hw⟩ := hS1
      have hG : G = G0 ++ [c.xs.zip c.fs] := by
        have e := hw.ev
        rw [hev, he0, List.append_assoc] at e
        have e' := List.append_cancel_left e
        have e'' : G.flatten = (G0 ++ [c.xs.zip c.fs]).flatten := asCalls_inj (by rw [e']; simp [asCalls])
        refine gaFlatten_inj ?_ hn ?_ e''
        · simp [hl, hl0]
        · intro g hg
          rcases List.mem_append.mp hg with h | h
          · exact hn0 g h
          · rw [List.mem_singleton.mp h, List.length_zip, hpb.xl, hpb.fl, Nat.min_self]
      subst hG
      rw [List.dropLast_concat]
      have hfin0 : ∀ p ∈ G0.flatten, AllFin p.2 := fun p hp => hfin p (by simp only [List.flatten_append]; exact List.mem_append_left _ hp)
      have hbpop : b.fs = (G0.getLastD (a.xs.zip a.fs)).map Prod.snd := by
        rw [← hpop0, List.map_snd_zip (by rw [hpa.xl, hpa.fl])]
      have hbfs : ∀ f ∈ b.fs, AllFin f := by
        rcases G0.eq_nil_or_concat with rfl | ⟨G', g, rfl⟩
        · simp only [List.length_nil] at hl0
          subst hl0
          cases h
          exact hfs
        · simp only [List.concat_eq_append, List.getLastD_concat] at hbpop hfin0
          rw [hbpop]
          intro f hf
          obtain ⟨p, hp, rfl⟩ := List.mem_map.mp hf
          exact hfin0 p (by simp only [List.flatten_append]; exact List.mem_append_right _ (by simpa using hp))
      obtain ⟨V, hV⟩ := gaOnes_of (l := b.fs) (fun f hf => ⟨(hpa.df f hf).trans hnf, hbfs f hf⟩)
      obtain ⟨ha1, -⟩ := gaArchived_arch hpa hw.sorted.perm hk haa hw.archived
      have hst : gaStart A b.m b.arch = b.arch := by unfold gaStart; rw [if_neg (by simp [hmem])]
      -- what is known before this generation
      obtain ⟨ob, SV, hob, hold, heq⟩ : ∃ (ob : K) (SV : List K), b.m.oracle = .fin ob ∧
          (¬ (b.g + 1 = 1 ∧ b.m.counter < 2) → ∃ T, KBest A.ker SV T ∧ (gaStart A b.m b.arch).map (fun r => (gaInd P r).2) = T.map gaOne ∧
            ∀ r ∈ gaStart A b.m b.arch, gaHead r = gaPenOf v P tol (.fin ob) (gaInd P r).2) ∧
          ((if b.g + 1 = 1 ∧ b.m.counter < 2 then [] else SV) ++ V).map gaOne = a.fs ++ G0.flatten.map Prod.snd := by
        rcases Nat.eq_zero_or_pos k with rfl | hk0
        · cases h
          have : G0 = [] := List.length_eq_zero_iff.mp hl0
          subst this
          refine ⟨o, [], hao, fun h => absurd ⟨by omega, by omega⟩ h, ?_⟩
          simp [hV]
        · obtain ⟨SV, T, h1, h2, h3⟩ := ih b G0 h hl0 hn0 he0 hfin0 hk0
          obtain ⟨o', ho', hT'⟩ := gaSteps_top hF hnobj hker ht htf hk hag hao hfs (S := []) (o0 := o) (by simp) (fun _ => ⟨rfl, rfl⟩) (fun h => by omega) k b G0 h hl0 hn0 he0 hfin0 hk0
          have hnot : ¬ (b.g + 1 = 1 ∧ b.m.counter < 2) := by rw [hbg]; omega
          refine ⟨o', SV, ho', fun _ => ⟨T, h2, by rw [hst]; exact h3, by rw [hst]; exact fun r hr => (hT'.rows r hr).2⟩, ?_⟩
          rw [if_neg hnot, List.map_append, ← h1, ← hV]
          rcases G0.eq_nil_or_concat with rfl | ⟨G', g, rfl⟩
          · simp at hl0; omega
          · simp only [List.concat_eq_append, List.getLastD_concat, List.dropLast_concat] at hbpop ⊢
            rw [hbpop]
            simp
      have hps : ps = b.fs.map (gaPenOf v P tol (.fin ob)) := by rw [hw.pens, hob]
      obtain ⟨T, hT1, hT2⟩ := gaK_archived hF hnobj hnc ht hker hacc hk hpa hV hps hw.sorted haa hw.archived hold
      refine ⟨_, T, heq.symm, hT1, ?_⟩
      rw [← hT2]
      have e := congrArg (List.map Prod.snd) (gaOracled_arch ha1 hw.oracle).2.1
      rw [List.map_map, List.map_map] at e
      exact e

/-- C116. With `acc = 0`, without constraints and without memory: if none of the criteria stopped the run, the first `ker` individuals returned have the `ker`
smallest objectives of all individuals at the begin and those evaluated in all generations but the last, in increasing order. Missing: other values of `acc` (see
`C116_second`, `C116_distance`), constraints, and what `C114_best_partial` misses. -/
theorem C116_kept_partial (v : GaEnv K σ) (R X : K → K) (hF : GaFns v R X) (rep : K → Prop) (hg : v.g.Lawful rep) (hsrt : ValidSort v.srt) (hrd : RoundOk v.rd) (P : AProb K)
    (hP : FiniteBox P) (hst : P.info.stochastic = false) (hnobj : P.info.nobj = 1) (hnc : P.info.nc = 0) (A : Gaco K) (hker : 2 ≤ A.ker) (hacc : A.acc = .fin 0)
    (hgens : A.gens + 1 < 2 ^ 32) (hgens0 : A.gens ≠ 0) (hmk : A.nGenMark + 1 < 2 ^ 32) (foc : K) (hf : A.focus = .fin foc) (hmem : A.memory = false)
    (bfe : Option (Batch K)) (hok : ∀ b, bfe = some b → BatchOk P b) (hfit : ∀ h x f, InBox P.lb P.ub P.nix x → P.fit h x = .ok f → AllFin f)
    (s : St K σ) (hi : Inv P.info s.pop) (hx : ∀ x ∈ s.pop.x, AllFin x) (hff : ∀ f ∈ s.pop.f, AllFin f) (htf : AllFin s.pop.tol)
    (hch : s.pop.chX ≠ []) (hk : A.ker ≤ s.pop.id.length) (m : GaMem K) (hcnt : m.counter = 0) (hmn : GaMemNum P A m) (o0 : K) (hmo : m.oracle = .fin o0)
    (fuel : Nat) (hfuel : A.gens < fuel) :
    wp (gaEvolve v P A bfe fuel m) (fun _ s' => ∃ G : List (List (List (Fl K) × List (Fl K))), G.length ≤ A.gens ∧ (∀ g ∈ G, g.length = s.pop.id.length) ∧
      s'.evs = s.evs ++ asCalls G.flatten ∧ (G.length = A.gens → ∃ S T : List K, s.pop.f ++ G.dropLast.flatten.map Prod.snd = S.map (fun y => [.fin y]) ∧
        s'.pop.f.take A.ker = T.map (fun y => [.fin y]) ∧ KBest A.ker S T))
      (CmFailed (GaBox P) P bfe s) s := by
  have hm : GaMemOk P A m := fun h => by rw [hmem] at h; cases h
  refine ((ga_run hg hsrt hrd hP.bounds hP.nx hst hnobj hker hgens hgens0 hok hi hch hk hm hfuel).and
    (C113_box v R X hF rep hg hsrt hrd P hP hst hnobj A hker hgens hgens0 hmk foc hf bfe hok s hi hx hch hk m hm hmn fuel hfuel)).mono ?_ (fun _ _ h => h.1)
  rintro m' s' ⟨⟨⟨new, ht⟩, b, rfl, hcase⟩, ⟨new', hnew', hbox⟩, -⟩
  have e0 : gaCount A m = m := by unfold gaCount; rw [if_neg (by simp [hmem])]
  have key : ∀ (k : Nat) (b1 : GaVars K) (s1 : St K σ), GaMid v P A (gaInit P A m) s k b1 s1 → s1.evs = s'.evs → (k = A.gens →
        s'.pop.f.take A.ker = b1.arch.map (fun r => (gaInd P r).2)) → k ≤ A.gens →
      ∃ G : List (List (List (Fl K) × List (Fl K))), G.length ≤ A.gens ∧ (∀ g ∈ G, g.length = s.pop.id.length) ∧
      s'.evs = s.evs ++ asCalls G.flatten ∧ (G.length = A.gens → ∃ S T : List K, s.pop.f ++ G.dropLast.flatten.map Prod.snd = S.map (fun y => [.fin y]) ∧
        s'.pop.f.take A.ker = T.map (fun y => [.fin y]) ∧ KBest A.ker S T) := by
    intro k b1 s1 hmid he hshow hkg
    obtain ⟨g1, g2, g3, G, hl, hn, hev, hpop, -⟩ := gaSteps_gens hk rfl _ _ hmid.run
    have hev' : s'.evs = s.evs ++ asCalls G.flatten := by rw [← he]; exact hev
    have hfin : ∀ p ∈ G.flatten, AllFin p.2 := by
      intro p hp
      have hnew : new = asCalls G.flatten := by
        have := ht.evs
        rw [hev'] at this
        exact (List.append_cancel_left this).symm
      have hnew2 : new = new' := by
        have := ht.evs
        rw [hnew'] at this
        exact (List.append_cancel_left this).symm
      have hmem : (p.1, Except.ok p.2) ∈ new := by rw [hnew]; exact List.mem_map_of_mem hp
      obtain ⟨h, e⟩ := ht.user _ hmem
      exact hfit h p.1 p.2 (hbox _ (hnew2 ▸ hmem)) e.symm
    refine ⟨G, by omega, hn, hev', fun hG => ?_⟩
    obtain ⟨S, T, h1, h2, h3⟩ := gaSteps_kbest hF hnobj hnc (by omega) hacc hmem hi.tol htf hk rfl (a := gaSt (gaInit P A m) 0 s) (o := o0)
      (by show (gaCount A m).counter = 0; rw [e0, hcnt]) (by show (gaCount A m).oracle = _; rw [e0, hmo]) hff k _ G hmid.run hl hn hev hfin (by omega)
    exact ⟨S, T, h1, by rw [hshow (by omega)]; exact h3, h2⟩
  rcases hcase with ⟨s1, hmid, hend⟩ | ⟨k, hk1, hk2, b1, hmid, hstop, rfl⟩
  · refine key _ _ _ hmid hend.evs.symm ?_ le_rfl
    intro _
    have har := (hmid.real (by omega)).1
    rw [hend.f, if_neg (by simp [hmem]), ← har, ← List.length_map (f := fun r => (gaInd P r).2), List.take_left]
  · exact key _ b1 _ hmid rfl (fun h => absurd h (by omega)) (by omega)

end

/-! ### C117: the members that last -/

/-- C117. If one of the criteria is met by the members, a call does nothing but count itself. -/
theorem C117_stopped (v : GaEnv K σ) (P : AProb K) (hst : P.info.stochastic = false) (hnobj : P.info.nobj = 1) (A : Gaco K) (hgens0 : A.gens ≠ 0)
    (bfe : Option (Batch K)) (fuel : Nat) (hfuel : 0 < fuel) (m : GaMem K) (s : St K σ) (h2 : 2 ≤ s.pop.id.length) (hk : A.ker ≤ s.pop.id.length)
    (h : A.impstop ≠ 0 ∧ A.impstop ≤ m.nImp ∨ A.evalstop ≠ 0 ∧ A.evalstop ≤ m.nEval) :
    gaEvolve v P A bfe fuel m s = (.ok (if A.memory then { m with counter := (m.counter + 1) % 2 ^ 32 } else m), s) := by
  have hs : GaStop A (gaCount A m) := by unfold gaCount GaStop; split <;> exact h
  have hgen : ∀ b : GaVars K, GaStop A b.m → gaGen v P A bfe s.pop.id.length 1 b s = (.ok ({ b with stop := true }, true), s) := by
    intro b hb
    unfold gaGen
    split
    · rfl
    rename_i hn
    rw [if_pos (hb.resolve_left hn)]
    rfl
  unfold gaEvolve
  show Run.bind _ _ _ = _
  unfold Run.bind
  dsimp only [Run.get]
  rw [if_neg (by omega), hst, if_neg (by simp), if_neg hgens0, if_neg (by omega), if_neg (by omega), if_neg (by omega)]
  show Run.bind _ _ _ = _
  unfold Run.bind
  obtain ⟨fuel, rfl⟩ : ∃ k, fuel = k + 1 := ⟨fuel - 1, by omega⟩
  rw [genLoop, if_pos (by omega)]
  have e : (gaGen v P A bfe s.pop.id.length 1
      ⟨gaCount A m, List.replicate A.ker (List.replicate (1 + P.info.nx + P.info.nf) (.fin 1)), List.replicate A.ker (.fin 0), false⟩) s = _ := hgen _ hs
  have e2 : (gaGen v P A bfe s.pop.id.length 1
      ⟨gaCount A m, List.replicate A.ker (List.replicate (1 + P.info.nx + P.info.nf) (.fin 1)), List.replicate A.ker (.fin 0), false⟩ >>= fun r =>
        if r.2 = true then pure r.1 else genLoop (gaGen v P A bfe s.pop.id.length) A.gens fuel (incU 1) r.1) s =
      (.ok ⟨gaCount A m, List.replicate A.ker (List.replicate (1 + P.info.nx + P.info.nf) (.fin 1)), List.replicate A.ker (.fin 0), true⟩, s) := by
    show Run.bind _ _ _ = _
    unfold Run.bind
    rw [e]
    rfl
  rw [e2]
  rfl

/-- C117. With `impstop` or `evalstop` equal to 1, which the constructor accepts, no call of `evolve` ever does anything: both counters start at 1. `n` calls on the
populations `s`, none of them with an exception, leave each of them as it is. -/
theorem C117_never (v : GaEnv K σ) (P : AProb K) (hst : P.info.stochastic = false) (hnobj : P.info.nobj = 1) {gen ker : Nat} {q oracle acc : Fl K}
    {threshold nGenMark impstop evalstop : Nat} {focus : Fl K} {memory : Bool} {A : Gaco K} {m0 : GaMem K}
    (hc : gaCtor gen ker q oracle acc threshold nGenMark impstop evalstop focus memory = .ok (A, m0)) (hgens0 : gen ≠ 0) (h : impstop = 1 ∨ evalstop = 1)
    (bfe : Option (Batch K)) (fuel : Nat) (hfuel : 0 < fuel) (s : Nat → St K σ) (s' : Nat → St K σ) (m : Nat → GaMem K) (hm0 : m 0 = m0)
    (hk : ∀ i, ker ≤ (s i).pop.id.length) (hrun : ∀ i, gaEvolve v P A bfe fuel (m i) (s i) = (.ok (m (i + 1)), s' i)) : ∀ i, s' i = s i := by
  have hker : 2 ≤ ker := by
    by_contra hn
    rw [(C113_ctor gen ker q oracle acc threshold nGenMark impstop evalstop focus memory).2.mpr (by right; right; right; left; omega)] at hc
    cases hc
  obtain ⟨rfl, rfl⟩ : (⟨gen, ker, acc, threshold, nGenMark, impstop, evalstop, focus, memory⟩ : Gaco K) = A ∧ (⟨oracle, q, 0, [], 1, 1, 1⟩ : GaMem K) = m0 := by
    rcases (C113_ctor gen ker q oracle acc threshold nGenMark impstop evalstop focus memory).1 with h | h
    · rw [h] at hc; cases hc; exact ⟨rfl, rfl⟩
    · rw [h] at hc; cases hc
  have key : ∀ i, (m i).nImp = 1 ∧ (m i).nEval = 1 ∧ s' i = s i := by
    have step : ∀ i, (m i).nImp = 1 → (m i).nEval = 1 → (m (i + 1)).nImp = 1 ∧ (m (i + 1)).nEval = 1 ∧ s' i = s i := by
      intro i h1 h2
      have e := hrun i
      rw [C117_stopped v P hst hnobj _ hgens0 bfe fuel hfuel (m i) (s i) (hker.trans (hk i)) (hk i) (by
        rcases h with h | h
        · left; dsimp only; omega
        · right; dsimp only; omega)] at e
      obtain ⟨e1, e2⟩ := Prod.mk.inj e
      have e3 := Outcome.ok.inj e1
      rw [← e3, ← e2]
      split
      · exact ⟨h1, h2, rfl⟩
      · exact ⟨h1, h2, rfl⟩
    have : ∀ i, (m i).nImp = 1 ∧ (m i).nEval = 1 := by
      intro i
      induction i with
      | zero => rw [hm0]; exact ⟨rfl, rfl⟩
      | succ i ih => exact ⟨(step i ih.1 ih.2).1, (step i ih.1 ih.2).2.1⟩
    intro i
    exact ⟨(this i).1, (this i).2, (step i (this i).1 (this i).2).2.2⟩
  exact fun i => (key i).2.2

/-- C117. Also without memory a run changes the parameter `q` of the algorithm: after a run that was not stopped it is 0.01, with which the next one begins. -/
theorem C117_q [IsStrictOrderedRing K] (v : GaEnv K σ) (rep : K → Prop) (hg : v.g.Lawful rep) (hsrt : ValidSort v.srt) (hrd : RoundOk v.rd) (P : AProb K)
    (hP : SaneBounds P.lb P.ub P.nix) (hnx : P.info.nx = P.lb.length) (hst : P.info.stochastic = false) (hnobj : P.info.nobj = 1) (A : Gaco K) (hker : 2 ≤ A.ker)
    (hgens : A.gens + 1 < 2 ^ 32) (hgens0 : A.gens ≠ 0) (hth : 1 ≤ A.threshold) (hth2 : A.threshold ≤ A.gens) (hmem : A.memory = false)
    (h1 : A.impstop = 0) (h2 : A.evalstop = 0) (bfe : Option (Batch K)) (hok : ∀ b, bfe = some b → BatchOk P b)
    (s : St K σ) (hi : Inv P.info s.pop) (hch : s.pop.chX ≠ []) (hk : A.ker ≤ s.pop.id.length) (m : GaMem K) (q0 : K) (hq : m.q = .fin q0) (fuel : Nat) (hfuel : A.gens < fuel) :
    wp (gaEvolve v P A bfe fuel m) (fun m' _ => m'.q = .fin (1 / 100)) (CmFailed (GaBox P) P bfe s) s := by
  refine (ga_run hg hsrt hrd hP hnx hst hnobj hker hgens hgens0 hok hi hch hk (fun h => by rw [hmem] at h; cases h) hfuel).mono ?_ (fun _ _ h => h)
  rintro m' s' ⟨-, b, rfl, hcase⟩
  have e0 : gaCount A m = m := by unfold gaCount; rw [if_neg (by simp [hmem])]
  rcases hcase with ⟨s1, hmid, -⟩ | ⟨k, -, -, b1, -, hstop, -⟩
  · have := (gaFull_q hth (a := gaSt (gaInit P A m) 0 s) rfl (q0 := q0) (by show (gaCount A m).q = _; rw [e0, hq]) _ _ hk hmid.run).1
    rw [if_neg hgens0] at this
    unfold gaQ at this
    rw [if_neg (by simp [hmem]), if_pos hth2] at this
    exact this
  · rcases hstop with h | h
    · exact absurd h1 h.1
    · exact absurd h2 h.1

/-! ### C118: batch and sequential evaluation -/

section
omit [Field K] [LinearOrder K]

theorem keeps_onRng_of {α : Type} {I : St K σ → Prop} (hI : ∀ s e, I s → I { s with e := e }) {m : Run σ α} {Q : α → Prop} (hm : Keeps (fun _ => True) m Q) :
    Keeps I (onRng m) Q := by
  intro s a s' hi e
  unfold onRng at e
  obtain ⟨e1, e2⟩ := Prod.mk.inj e
  rw [← e2]
  refine ⟨hI _ _ hi, (hm s.e a (m s.e).2 trivial (Prod.ext e1 rfl)).2⟩

end

theorem keeps_grow {τ α β : Type} {f : List β → α → Run τ (List β)} {Q : β → Prop} (hf : ∀ l a, (∀ b ∈ l, Q b) → Keeps (fun _ => True) (f l a) (fun r => r.length = l.length + 1 ∧ ∀ b ∈ r, Q b)) :
    ∀ (as : List α) (l : List β), (∀ b ∈ l, Q b) → Keeps (fun _ => True) (as.foldlM f l) (fun r => r.length = l.length + as.length ∧ ∀ b ∈ r, Q b) := by
  intro as
  induction as with
  | nil => intro l hl; exact keeps_pure ⟨rfl, hl⟩
  | cons a as ih =>
    intro l hl
    rw [List.foldlM_cons]
    refine keeps_bind (hf l a hl) fun r hr s x s' hs e => ?_
    obtain ⟨h1, h2, h3⟩ := ih r hr.2 s x s' hs e
    exact ⟨h1, by rw [h2, hr.1, List.length_cons]; omega, h3⟩

theorem keeps_gaAnts (v : GaEnv K σ) (P : AProb K) (A : Gaco K) (cum sig : List (Fl K)) (arch : List (List (Fl K))) (n : Nat) :
    Keeps (fun _ => True) (gaAnts v P A cum sig arch n) (fun xs => xs.length = n ∧ ∀ x ∈ xs, x.length = P.info.nx) := by
  have any : ∀ {α : Type} (m : Run σ α), Keeps (fun _ => True) m (fun _ => True) := fun m _ _ _ _ _ => ⟨trivial, trivial⟩
  have ant : Keeps (fun _ => True) (gaAnt v P A cum sig arch) (fun x => x.length = P.info.nx) := by
    unfold gaAnt
    refine keeps_bind (any _) fun u _ => keeps_bind (any _) fun k _ => keeps_bind (any _) fun row _ => ?_
    have := keeps_grow (Q := fun _ => True) (f := fun (x : List (Fl K)) h => (do
      let g ← gaGene v P row sig h
      pure (x ++ [g]) : Run σ (List (Fl K)))) (fun l a _ => keeps_bind (any _) fun g _ => keeps_pure (by simp)) (List.range P.info.nx) [] (by simp)
    intro s x s' hs e
    obtain ⟨h1, h2, -⟩ := this s x s' hs e
    exact ⟨h1, by simpa using h2⟩
  have := keeps_grow (Q := fun x : List (Fl K) => x.length = P.info.nx) (f := fun (xs : List (List (Fl K))) (_ : Nat) => (do
    let x ← gaAnt v P A cum sig arch
    pure (xs ++ [x]) : Run σ (List (List (Fl K))))) (fun l a hl => keeps_bind ant fun x hx => keeps_pure ⟨by simp, by
      intro b hb
      rcases List.mem_append.mp hb with h | h
      · exact hl b h
      · rw [List.mem_singleton.mp h]; exact hx⟩) (List.range n) [] (by simp)
  intro s x s' hs e
  obtain ⟨h1, h2, h3⟩ := this s x s' hs e
  exact ⟨h1, by simpa using h2, h3⟩

theorem gaBatch_of {P : AProb K} {b : Batch K} {F : List (Fl K) → List (Fl K)} (hF : BatchOf P b F) (hnx : 0 < P.info.nx) (hnf : 0 < P.info.nf)
    {xs : List (List (Fl K))} (hx : ∀ x ∈ xs, x.length = P.info.nx) (s : St K σ) :
    gaBatch P b xs s = (Outcome.ok (xs.map F), { s with evs := s.evs ++ xs.map (fun x => (x, Except.ok (F x))) }) := by
  have hfl := length_flatten_const hx
  have hin : checkInput P.info.nx xs.flatten = .ok () := checkInput_ok.mpr ⟨xs.length, by rw [hfl, Nat.mul_comm]⟩
  have hdiv : xs.flatten.length / P.info.nx = xs.length := by rw [hfl, Nat.mul_div_cancel _ hnx]
  have hdF : ∀ x ∈ xs.map F, x.length = P.info.nf := fun x hm => by obtain ⟨y, hy, rfl⟩ := List.mem_map.mp hm; exact hF.dim y (hx y hy)
  have hl := length_flatten_const hdF
  rw [List.length_map] at hl
  have hout : checkOutput P.info.nx P.info.nf xs.flatten (xs.map F).flatten = .ok () := by
    unfold checkOutput
    rw [if_neg (by rw [hl]; simp), if_neg (by rw [hdiv, hl, Nat.mul_div_cancel _ hnf]; simp)]
  have hch : (List.range xs.length).map (chunk (xs.map F).flatten P.info.nf) = xs.map F := by
    apply List.ext_getElem?
    intro i
    by_cases hi : i < xs.length
    · rw [List.getElem?_map, List.getElem?_range hi, Option.map_some, chunk_flatten (xs.map F) i hdF (by simpa using hi),
        List.getElem?_eq_getElem (l := xs.map F) (by simpa using hi)]
    · rw [List.getElem?_eq_none (by simpa using hi), List.getElem?_eq_none (by simpa using hi)]
  unfold gaBatch
  rw [hin]
  dsimp only
  rw [hF.batch s.evs xs hx]
  dsimp only
  rw [hout]
  dsimp only
  rw [hch, List.zip_map_right, List.map_map]
  have hz : ∀ l : List (List (Fl K)), (l.zip l).map (fun x => ((x.1, Except.ok (F x.2)) : ECall K)) = l.map (fun x => (x, Except.ok (F x))) := by
    intro l
    induction l with
    | nil => rfl
    | cons a l ih => simp only [List.zip_cons_cons, List.map_cons, ih]
  simpa [Function.comp_def] using hz xs

theorem gaStore_evs (v : GaEnv K σ) (P : AProb K) (xs fs : List (List (Fl K))) (u : Unit) (i : Nat) : EvsFree (gaStore v P xs fs u i) := by
  unfold gaStore
  exact evsFree_bind (fun _ _ => ⟨rfl, rfl⟩) fun _ => evsFree_bind (fun _ _ => ⟨rfl, rfl⟩) fun _ => fun _ _ => ⟨rfl, rfl⟩

theorem gaEval_batch (v : GaEnv K σ) {P : AProb K} {b : Batch K} {F : List (Fl K) → List (Fl K)} (hF : BatchOf P b F) (hnx : 0 < P.info.nx)
    (hnf : 0 < P.info.nf) {xs : List (List (Fl K))} {lam : Nat} (hl : xs.length = lam) (hx : ∀ x ∈ xs, x.length = P.info.nx)
    (s s' : St K σ) : gaEval v P none lam xs s = (.ok (), s') ↔ gaEval v P (some b) lam xs s = (.ok (), s') := by
  have hFx : ∀ x ∈ xs, ∀ s : St K σ, eval P x s = (.ok (F x), { s with evs := s.evs ++ [(x, Except.ok (F x))] }) := by
    intro x h s
    unfold eval
    rw [hF.fit _ _ (hx x h), if_neg (by simp [hx x h])]
    unfold Pop.probFitness
    simp [hx x h, hF.dim x (hx x h)]
  have key : ∀ k, k ≤ lam → ∀ s', (List.range k).foldlM (gaSet v P xs) () s = (Outcome.ok (), s') ↔
      ∃ s1, (List.range k).foldlM (gaStore v P xs (xs.map F)) () s = (Outcome.ok (), s1) ∧
        s' = { s1 with evs := s.evs ++ (xs.take k).map (fun x => (x, Except.ok (F x))) } := by
    intro k
    induction k with
    | zero =>
      intro _ s'
      constructor
      · intro h; cases h; exact ⟨s, rfl, by simp⟩
      · rintro ⟨s1, h, rfl⟩; cases h; simp; rfl
    | succ k ih =>
      intro hk s'
      have hkl : k < xs.length := by omega
      rw [List.range_succ, run_foldlM_snoc, run_foldlM_snoc, bind_ok_iff]
      have hmem := List.getElem_mem hkl
      have hset : ∀ s2 : St K σ, gaSet v P xs () k s2 = onPop (Pop.setXF v.sq P.info k xs[k] (F xs[k])) { s2 with evs := s2.evs ++ [(xs[k], Except.ok (F xs[k]))] } := by
        intro s2
        unfold gaSet
        show Run.bind _ _ _ = _
        unfold Run.bind
        rw [Outcome.get_of_lt hkl]
        show setX v.toEnv P k xs[k] s2 = _
        unfold setX
        show Run.bind _ _ _ = _
        unfold Run.bind
        rw [hFx _ hmem]
      have hstore : ∀ s2 : St K σ, gaStore v P xs (xs.map F) () k s2 = onPop (Pop.setXF v.sq P.info k xs[k] (F xs[k])) s2 := by
        intro s2
        unfold gaStore
        show Run.bind _ _ _ = _
        unfold Run.bind
        rw [Outcome.get_of_lt hkl]
        show Run.bind _ _ _ = _
        unfold Run.bind
        rw [Outcome.get_of_lt (show k < (xs.map F).length by simpa using hkl), List.getElem_map]
        rfl
      have htk : (xs.take (k + 1)).map (fun x => (x, (Except.ok (F x) : User (List (Fl K))))) =
          (xs.take k).map (fun x => (x, Except.ok (F x))) ++ [(xs[k], Except.ok (F xs[k]))] := by
        rw [List.take_succ_eq_append_getElem hkl, List.map_append]; rfl
      rw [htk]
      constructor
      · rintro ⟨u, s2, h1, h2⟩
        obtain ⟨s3, h3, rfl⟩ := (ih (by omega) s2).mp h1
        rw [hset] at h2
        rcases hr : Pop.setXF v.sq P.info k xs[k] (F xs[k]) s3.pop with ⟨o, p⟩
        unfold onPop at h2
        dsimp only at h2
        rw [hr] at h2
        obtain ⟨e1, rfl⟩ := Prod.mk.inj h2
        dsimp only at e1
        refine ⟨{ s3 with pop := p }, bind_ok_iff.mpr ⟨(), s3, h3, ?_⟩, ?_⟩
        · rw [hstore]
          unfold onPop
          rw [hr, e1]
        · simp
      · rintro ⟨s1, h1, rfl⟩
        obtain ⟨u, s3, h3, h4⟩ := bind_ok_iff.mp h1
        refine ⟨(), _, (ih (by omega) _).mpr ⟨s3, h3, rfl⟩, ?_⟩
        rw [hstore] at h4
        rw [hset]
        rcases hr : Pop.setXF v.sq P.info k xs[k] (F xs[k]) s3.pop with ⟨o, p⟩
        unfold onPop at h4 ⊢
        dsimp only
        rw [hr] at h4 ⊢
        obtain ⟨e1, rfl⟩ := Prod.mk.inj h4
        dsimp only at e1
        rw [e1]
        simp
  unfold gaEval
  dsimp only
  rw [key lam le_rfl s']
  show _ ↔ Run.bind _ _ _ = _
  unfold Run.bind
  rw [gaBatch_of hF hnx hnf hx s]
  dsimp only
  obtain ⟨h1, h2⟩ := evsFree_foldlM (gaStore_evs v P xs (xs.map F)) (List.range lam) () s (s.evs ++ xs.map (fun x => (x, Except.ok (F x))))
  rw [h1, List.take_of_length_le hl.le]
  constructor
  · rintro ⟨s1, h3, rfl⟩
    rw [h3]
  · intro h
    obtain ⟨e1, e2⟩ := Prod.mk.inj h
    exact ⟨_, Prod.ext e1 rfl, e2.symm⟩

/-- C118. If the fitness is a function of the point and the batch evaluator computes this function for each point, then a run with the batch evaluator
that ends without an exception does exactly the same as a run without: same population, same members, same random engine, same evaluations in the same
order; and the other way round. The problem may have constraints. -/
theorem C118_batch [IsStrictOrderedRing K] (v : GaEnv K σ) (P : AProb K) (A : Gaco K) (b : Batch K) (F : List (Fl K) → List (Fl K)) (hF : BatchOf P b F)
    (hnx : 0 < P.info.nx) (hnobj : 0 < P.info.nobj) (fuel : Nat) (m m' : GaMem K) (s s' : St K σ) (hi : Inv P.info s.pop) :
    gaEvolve v P A (some b) fuel m s = (.ok m', s') ↔ gaEvolve v P A none fuel m s = (.ok m', s') := by
  have hnf : 0 < P.info.nf := by unfold Info.nf; omega
  let I : St K σ → Prop := fun s1 => Inv P.info s1.pop ∧ s1.pop.id.length = s.pop.id.length
  have hrng : ∀ (s : St K σ) e, I s → I { s with e := e } := fun _ _ h => h
  have set : ∀ (xs : List (List (Fl K))) (u : Unit) (i : Nat), Keeps I (gaSet v P xs u i) (fun _ => True) := by
    intro xs u i
    unfold gaSet setX
    refine keeps_bind (keeps_lift _) fun x _ => keeps_bind (R := fun _ => True) ?_ fun f _ => ?_
    · intro s1 a s2 hI e
      unfold eval at e
      rw [← (Prod.mk.inj e).2]
      split <;> exact ⟨hI, trivial⟩
    intro s1 a s2 hI e
    have key := op_run (sq := v.sq) hnx hnobj hI.1 (.setXF i x f)
    change wp (Pop.setXF v.sq P.info i x f) _ _ _ at key
    unfold onPop at e
    unfold wp at key
    rcases hr : Pop.setXF v.sq P.info i x f s1.pop with ⟨o, p⟩
    rw [hr] at key e
    obtain ⟨e1, rfl⟩ := Prod.mk.inj e
    dsimp only at e1
    subst e1
    obtain ⟨k1, k2, -⟩ := key
    exact ⟨⟨k1, (congrArg List.length k2.2.1).trans hI.2⟩, trivial⟩
  have evl : ∀ xs, Keeps I (gaEval v P none s.pop.id.length xs) (fun _ => True) := by
    intro xs
    unfold gaEval
    exact keeps_foldlM (set xs) _ _
  have ants : ∀ (cum sig : List (Fl K)) (arch : List (List (Fl K))), Keeps I (onRng (gaAnts v P A cum sig arch s.pop.id.length))
      (fun xs => xs.length = s.pop.id.length ∧ ∀ x ∈ xs, x.length = P.info.nx) := fun cum sig arch => keeps_onRng_of hrng (keeps_gaAnts v P A cum sig arch _)
  have gen : ∀ g c, Keeps I (gaGen v P A none s.pop.id.length g c) (fun _ => True) := by
    intro g c
    unfold gaGen
    split
    · exact keeps_pure trivial
    split
    · exact keeps_pure trivial
    exact keeps_bind keeps_get fun s1 _ => keeps_bind (keeps_lift _) fun ps _ => keeps_bind (keeps_lift _) fun sl _ => keeps_bind (keeps_lift _) fun r _ =>
      keeps_bind (keeps_lift _) fun sig _ => keeps_bind (ants _ _ _) fun xs _ => keeps_bind (evl xs) fun _ _ => keeps_bind keeps_get fun _ _ =>
      keeps_bind (keeps_lift _) fun _ _ => keeps_bind (keeps_lift _) fun _ _ => keeps_pure trivial
  have same : ∀ g c, SameOk I (gaGen v P A none s.pop.id.length g c) (gaGen v P A (some b) s.pop.id.length g c) := by
    intro g c
    unfold gaGen
    split
    · exact sameOk_refl _
    split
    · exact sameOk_refl _
    refine sameOk_bind (sameOk_refl _) keeps_get fun s1 _ => sameOk_bind (sameOk_refl _) (keeps_lift _) fun ps _ => sameOk_bind (sameOk_refl _) (keeps_lift _) fun sl _ =>
      sameOk_bind (sameOk_refl _) (keeps_lift _) fun r _ => sameOk_bind (sameOk_refl _) (keeps_lift _) fun sig _ => sameOk_bind (sameOk_refl _) (ants _ _ _) fun xs hxs =>
      sameOk_bind ?_ (evl xs) fun _ _ => sameOk_refl _
    intro s2 r s3 _
    exact gaEval_batch v hF hnx hnf hxs.1 hxs.2 _ _
  have key : SameOk I (gaEvolve v P A none fuel m) (gaEvolve v P A (some b) fuel m) := by
    unfold gaEvolve
    refine sameOk_bind (sameOk_refl _) keeps_get fun s1 h1 => ?_
    rw [h1.2]
    dsimp only
    split
    · exact sameOk_refl _
    split
    · exact sameOk_refl _
    split
    · exact sameOk_refl _
    split
    · exact sameOk_refl _
    split
    · exact sameOk_refl _
    split
    · exact sameOk_refl _
    · exact sameOk_bind (genLoop_same same gen _ _ _ _) (genLoop_keeps gen _ _ _ _) fun _ _ => sameOk_refl _
  exact (key s m' s' ⟨hi, rfl⟩).symm

/-! ### Examples, and where the archive loses -/

example : KBest 2 ([3, 1, 2, 1] : List ℚ) [1, 1] := ⟨rfl, by decide +kernel, [3, 2], by decide +kernel, by decide +kernel⟩

example (e : List ℚ) := C116_kept_partial gaDemoEnv _ _ gaDemo_fns _ demoGen_lawful insSort_valid sgaRound_ok algDemo algDemo_finiteBox rfl rfl rfl (gaDemoPars false) (by decide) rfl
  (by decide) (by decide) (by decide) 0 rfl rfl none (by simp) gaDemo_fit (gaDemoSt e) algDemo_inv (gaDemo_fin e).1 (gaDemo_fin e).2.1 (gaDemo_fin e).2.2
  (by simp [gaDemoSt, algDemoSt]) (by simp [gaDemoSt, algDemoSt, gaDemoPars]) gaDemoMem rfl (gaDemo_memNum _) 0 rfl 3 (by decide)

/-- C116. With `acc` above zero: the individuals 3, 1, 2 and, in the first generation, 1.1, 3, 3. The archive keeps 9, the worst of all, in place of 1.21, the second best
of all, which differs from the best by more than `acc`: if the best of all is an old row, the second best is compared with itself, and so dropped. -/
theorem C116_second : let A : Gaco ℚ := { gaDemoPars false with acc := .fin (1 / 100), gens := 3 }
    let r := gaEvolve gaDemoEnv algDemo A none 4 gaDemoMem (gaDemoSt [0, 1/10, 0, 2, 0, 2, 0, 3, 0, 3, 0, 3, 0, 1, 0, 1, 0, 1])
    r.2.evs.take 3 = [([.fin (11 / 10)], .ok [.fin (121 / 100)]), ([.fin 3], .ok [.fin 9]), ([.fin 3], .ok [.fin 9])] ∧ r.2.pop.f = [[.fin 1], [.fin 4], [.fin 9]] := by
  decide +kernel

/-- three individuals, with the objectives 0.81, 4 and 9 -/
def gaFarSt (e : List ℚ) : St ℚ (List ℚ) :=
  ⟨⟨[7, 8, 9], [[.fin (9 / 10)], [.fin 2], [.fin 3]], [[.fin (81 / 100)], [.fin 4], [.fin 9]], [.fin (9 / 10)], [.fin (81 / 100)], [], fun n => n, []⟩, e, []⟩

def gaArchOf (o : Outcome (GaMem ℚ)) : List (List (Fl ℚ)) := match o with | .ok m => m.arch | _ => []

/-- C116. The penalties in the archive are meant to differ by at least `acc`. Here it is 0.4, but in the archive left by the run the second and the third
penalty differ by less, 64/225: the row compared with is not the last one kept. -/
theorem C116_distance :
    let A : Gaco ℚ := { gaDemoPars true with acc := .fin (2 / 5) }
    (gaArchOf (gaEvolve gaDemoEnv algDemo A none 3 gaDemoMem (gaFarSt [0, -9/11, 0, -3/11, 0, -2/11, 0, 0, 0, 0, 0, 0])).1).map (fun r => r.getD 0 .nan) =
      [.fin 0, .fin (98 / 225), .fin (18 / 25)] ∧ (18 / 25 - 98 / 225 : ℚ) < 2 / 5 := by
  decide +kernel

example (s : St ℚ (List ℚ)) (h : 3 ≤ s.pop.id.length) := C117_stopped gaDemoEnv algDemo rfl rfl { gaDemoPars true with impstop := 4 } (by decide) none 3 (by decide)
  { gaDemoMem with nImp := 5 } s (by omega) h (by decide)

example (s s' : Nat → St ℚ (List ℚ)) (m : Nat → GaMem ℚ) := C117_never gaDemoEnv algDemo rfl rfl (gen := 2) (ker := 3) (q := .fin 1) (oracle := .fin 0) (acc := .fin 0)
  (threshold := 2) (nGenMark := 7) (impstop := 1) (evalstop := 0) (focus := .fin 0) (memory := false) (A := { gaDemoPars false with impstop := 1 }) (m0 := gaDemoMem)
  (by decide +kernel) (by decide) (by decide) none 3 (by decide) s s' m

/-- three calls with `impstop = 1` on the population of the examples -/
example : ∀ i, gaEvolve gaDemoEnv algDemo { gaDemoPars false with impstop := 1 } none 3 gaDemoMem (gaDemoSt [i]) = (.ok gaDemoMem, gaDemoSt [i]) := fun _ => rfl

example (e : List ℚ) := C117_q gaDemoEnv _ demoGen_lawful insSort_valid sgaRound_ok algDemo algDemo_finiteBox.bounds rfl rfl rfl (gaDemoPars false) (by decide)
  (by decide) (by decide) (by decide) (by decide) rfl rfl rfl none (by simp) (gaDemoSt e) algDemo_inv (by simp [gaDemoSt, algDemoSt]) (by simp [gaDemoSt, algDemoSt, gaDemoPars])
  gaDemoMem 1 rfl 3 (by decide)

/-- C117. Without memory two calls on the same population with the same random numbers differ: the second one begins with `q = 0.01`, so that the first row is
chosen in place of the second one. -/
theorem C117_again : let A : Gaco ℚ := gaDemoPars false
    let e : List ℚ := [1/2, 1, 1/2, 1, 1/2, 1, 0, 1, 0, 1, 0, 1]
    ∃ m', (gaEvolve gaDemoEnv algDemo A none 3 gaDemoMem (gaDemoSt e)).1 = .ok m' ∧
      (gaEvolve gaDemoEnv algDemo A none 3 gaDemoMem (gaDemoSt e)).2.pop.f = [[.fin 1], [.fin 4], [.fin 9]] ∧
      (gaEvolve gaDemoEnv algDemo A none 3 m' (gaDemoSt e)).2.pop.f = [[.fin 1], [.fin 4], [.fin 4]] :=
  ⟨⟨.fin 0, .fin (1 / 100), 0, [], 3, 2, 1⟩, by decide +kernel, by decide +kernel, by decide +kernel⟩

/-- C117. With memory a call on an empty population is counted, but leaves no archive: the next call reads a row that does not exist. -/
theorem C117_empty : let A : Gaco ℚ := gaDemoPars true
    let s0 : St ℚ (List ℚ) := ⟨⟨[], [], [], [], [], [], fun n => n, []⟩, [], []⟩
    ∃ m', gaEvolve gaDemoEnv algDemo A none 3 gaDemoMem s0 = (.ok m', s0) ∧ (gaEvolve gaDemoEnv algDemo A none 3 m' (gaDemoSt [])).1 = .ub :=
  ⟨{ gaDemoMem with counter := 1 }, rfl, by decide +kernel⟩

/-- squares of numbers -/
def gaSqBatch : Batch ℚ := fun _ dvs => .ok (dvs.map (fun a => Fl.mul a a))

theorem gaSqBatch_of : BatchOf algDemo gaSqBatch (fun x => x.map (fun a => Fl.mul a a)) where
  fit _ _ _ := rfl
  dim x h := by rw [List.length_map]; exact h
  batch _ xs _ := by
    show Except.ok _ = _
    rw [List.map_flatten]

example (m : GaMem ℚ) (e : List ℚ) (s : St ℚ (List ℚ)) : gaEvolve gaDemoEnv algDemo (gaDemoPars true) (some gaSqBatch) 3 gaDemoMem (gaDemoSt e) = (.ok m, s) ↔
    gaEvolve gaDemoEnv algDemo (gaDemoPars true) none 3 gaDemoMem (gaDemoSt e) = (.ok m, s) :=
  C118_batch gaDemoEnv algDemo _ gaSqBatch _ gaSqBatch_of (by decide) (by decide) 3 _ _ _ _ algDemo_inv

end Verif.Props
