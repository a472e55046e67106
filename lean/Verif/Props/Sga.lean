import Verif.Proof.Sga
import Mathlib.Data.List.Count

/-!
# C66: sga
-/

set_option autoImplicit false

namespace Verif.Props

open Verif Run Prob Pop Alg

variable {K σ : Type} [Field K] [LinearOrder K]

/-- the objective value of an individual (decision vector and fitness) -/
def objOf (a : List (Fl K) × List (Fl K)) : Fl K := a.2.getD 0 .nan

/-- `kept` are the best of `pool`, in order; NaN is larger than every number. -/
structure BestOf (kept pool : List (List (Fl K) × List (Fl K))) : Prop where
  split : ∃ rest, (kept ++ rest).Perm pool ∧ ∀ a ∈ kept, ∀ b ∈ rest, objOf a ≤ objOf b
  sorted : kept.Pairwise (fun a b => objOf a ≤ objOf b)

/-- The best of the best of a pool and other individuals are the best of all of them. -/
theorem bestOf_trans {k1 k2 pool new : List (List (Fl K) × List (Fl K))} (h1 : BestOf k1 pool)
    (h2 : BestOf k2 (new ++ k1)) (hl : k2.length = k1.length) : BestOf k2 (pool ++ new) := by
  obtain ⟨r1, p1, le1⟩ := h1.split
  obtain ⟨r2, p2, le2⟩ := h2.split
  refine ⟨⟨r2 ++ r1, ?_, ?_⟩, h2.sorted⟩
  · rw [← List.append_assoc]
    refine (p2.append_right r1).trans ?_
    rw [List.append_assoc]
    exact (p1.append_left new).trans List.perm_append_comm
  · intro a ha b hb
    rcases List.mem_append.mp hb with hb | hb
    · exact le2 a ha b hb
    · by_contra hab
      push Not at hab
      have c1 : (new ++ k1).countP (fun c => decide (objOf c ≤ objOf b)) ≥ k1.length := by
        rw [List.countP_append]
        have : k1.countP (fun c => decide (objOf c ≤ objOf b)) = k1.length :=
          List.countP_eq_length.mpr (fun c hc => by simpa using le1 c hc b hb)
        omega
      rw [← p2.countP_eq, List.countP_append] at c1
      have c2 : r2.countP (fun c => decide (objOf c ≤ objOf b)) = 0 :=
        List.countP_eq_zero.mpr (fun c hc => by simpa using hab.trans_le (le2 a ha c hc))
      have c3 : k2.countP (fun c => decide (objOf c ≤ objOf b)) < k2.length := by
        refine lt_of_le_of_ne List.countP_le_length (fun h => ?_)
        have := List.countP_eq_length.mp h a ha
        simp at this
        exact absurd hab (not_lt.mpr this)
      omega

/-- individual number `i` of the pool -/
def poolAt (X F : List (List (Fl K))) (i : Nat) : List (Fl K) × List (Fl K) := (X.getD i [], F.getD i [])

omit [Field K] [LinearOrder K] in
theorem pool_map (X F : List (List (Fl K))) (h : X.length = F.length) :
    (List.range F.length).map (poolAt X F) = X.zip F := by
  apply List.ext_getElem?
  intro k
  unfold poolAt
  grind

theorem best_of_sorted {X F : List (List (Fl K))} (h : X.length = F.length) {o : List Nat} (hp : o.Perm (List.range F.length))
    (hs : o.Pairwise (fun a b => obj0 F a ≤ obj0 F b)) (n : Nat) : BestOf ((o.take n).map (poolAt X F)) (X.zip F) := by
  have hs' : o.Pairwise (fun a b => objOf (poolAt X F a) ≤ objOf (poolAt X F b)) := hs
  rw [← List.take_append_drop n o, List.pairwise_append] at hs'
  refine ⟨⟨(o.drop n).map (poolAt X F), ?_, ?_⟩, ?_⟩
  · rw [← List.map_append, List.take_append_drop, ← pool_map X F h]
    exact hp.map _
  · intro a ha b hb
    obtain ⟨i, hi, rfl⟩ := List.mem_map.mp ha
    obtain ⟨j, hj, rfl⟩ := List.mem_map.mp hb
    exact hs'.2.2 i hi j hj
  · exact List.pairwise_map.mpr hs'.1

omit [Field K] [LinearOrder K] in
theorem set_take_drop {α : Type} {S x : List α} {j : Nat} (h1 : j < S.length) (h2 : j < x.length) :
    (S.take j ++ x.drop j).set j S[j] = S.take (j + 1) ++ x.drop (j + 1) := by
  apply List.ext_getElem?
  intro k
  grind

section
variable [IsStrictOrderedRing K]

theorem wp_evalAll {B : List (Fl K) → Prop} {P : AProb K} (hB : ∀ x, B x → x.length = P.info.nx) {s0 s : St K σ}
    {new : List (ECall K)} (ht : TrackedBy B P s0 new s) {NP : Nat} {X F0 : List (List (Fl K))} (hX : Fam B NP X)
    (hF : Fam (fun f => f.length = P.info.nf) NP F0) :
    wp ((List.range NP).foldlM (evalOne P X) F0) (fun F s' => Fam (fun f => f.length = P.info.nf) NP F ∧ s'.pop = s.pop ∧
      TrackedBy B P s0 (new ++ asCalls (X.zip F)) s') (FailedBy B P s0) s := by
  have hl := hX.1
  refine (wp_range (fun j (F : List (List (Fl K))) s' => Fam (fun f => f.length = P.info.nf) NP F ∧ s'.pop = s.pop ∧
      TrackedBy B P s0 (new ++ asCalls ((X.zip F).take j)) s') NP F0 s ⟨hF, rfl, by simpa [asCalls] using ht⟩ ?_).mono ?_ (fun _ _ h => h)
  · rintro j F s1 hj ⟨h1, h2, h3⟩
    have hm := hX.2 _ (List.getElem_mem (l := X) (n := j) (by omega))
    have hFl := h1.1
    unfold evalOne
    rw [wp_bind, wp_lift_get (by omega), wp_bind]
    refine wp_eval_by (hB _ hm) h3 hm ?_ (fun _ _ h => h)
    intro f s2 hf hpop _ ht2
    rw [wp_lift_set (by omega)]
    refine ⟨fam_set h1 hf, hpop.trans h2, ?_⟩
    rw [zip_take_set (by omega) (by omega)]
    simpa [asCalls] using ht2
  · rintro F s1 ⟨h1, h2, h3⟩
    refine ⟨h1, h2, ?_⟩
    have hFl := h1.1
    have : (X.zip F).length = NP := by rw [List.length_zip]; omega
    rw [← this, List.take_length] at h3
    exact h3

theorem wp_reinsert {B : List (Fl K) → Prop} {v : Env K σ} (hs : ValidSort v.srt) {P : AProb K} (hB : ∀ x, B x → x.length = P.info.nx)
    (hnx0 : 0 < P.info.nx) (hnobj : 0 < P.info.nobj) {s0 s : St K σ} {new : List (ECall K)} (ht : TrackedBy B P s0 new s) {NP : Nat}
    (hNP : s0.pop.id.length = NP) (hx : ∀ x ∈ s.pop.x, B x)
    {X F : List (List (Fl K))} (hX : Fam B NP X) (hF : Fam (fun f => f.length = P.info.nf) NP F) :
    wp (reinsert v P NP X F) (fun _ s' => TrackedBy B P s0 new s' ∧ (∀ x ∈ s'.pop.x, B x) ∧
      BestOf (s'.pop.x.zip s'.pop.f) (X.zip F ++ s.pop.x.zip s.pop.f)) (FailedBy B P s0) s := by
  have hXl := hX.1
  have hFl := hF.1
  have hid : s.pop.id.length = NP := by rw [ht.id]; exact hNP
  have hxl := ht.inv.wf.xs
  have hfl := ht.inv.wf.fs
  unfold reinsert
  rw [wp_bind, wp_get', wp_bind]
  obtain ⟨o, h1, h2, h3⟩ := sort_obj hs (F ++ s.pop.f)
  rw [h1, wp_lift_ok]
  have hol : o.length = NP + NP := by rw [h2.length_eq]; simp; omega
  have hlt : ∀ i ∈ o, i < NP + NP := fun i hi => by have := h2.mem_iff.mp hi; simp at this; omega
  have hpool : X.zip F ++ s.pop.x.zip s.pop.f = (X ++ s.pop.x).zip (F ++ s.pop.f) :=
    (List.zip_append (by omega)).symm
  have hbest := best_of_sorted (X := X ++ s.pop.x) (F := F ++ s.pop.f) (by simp; omega) h2 h3 NP
  rw [← hpool] at hbest
  have hXB : ∀ x ∈ X ++ s.pop.x, B x := fun x hx' => by
    rcases List.mem_append.mp hx' with h | h
    · exact hX.2 x h
    · exact hx x h
  have hFB : ∀ f ∈ F ++ s.pop.f, f.length = P.info.nf := fun f hf' => by
    rcases List.mem_append.mp hf' with h | h
    · exact hF.2 f h
    · exact ht.inv.wf.dimF f h
  have hXl' : (X ++ s.pop.x).length = NP + NP := by simp; omega
  have hFl' : (F ++ s.pop.f).length = NP + NP := by simp; omega
  generalize X ++ s.pop.x = XX at hbest hXB hXl'
  generalize F ++ s.pop.f = FF at hbest hFB hFl'
  refine (wp_range (fun j _ (s' : St K σ) => TrackedBy B P s0 new s' ∧ (∀ x ∈ s'.pop.x, B x) ∧
    s'.pop.x = (((o.take NP).map (poolAt XX FF)).map Prod.fst).take j ++ s.pop.x.drop j ∧
    s'.pop.f = (((o.take NP).map (poolAt XX FF)).map Prod.snd).take j ++ s.pop.f.drop j) NP () s
    ⟨ht, hx, by simp, by simp⟩ ?_).mono ?_ (fun _ _ h => h)
  · rintro j _ s1 hj ⟨ht1, hx1, e1, e2⟩
    have hoj := hlt _ (List.getElem_mem (l := o) (n := j) (by omega))
    unfold putBest
    rw [wp_bind, wp_lift_get (by omega), wp_bind, wp_lift_get (by omega), wp_bind, wp_lift_get (by omega)]
    have hxb := hXB _ (List.getElem_mem (l := XX) (n := o[j]) (by omega))
    refine wp_setXF_tracked hnx0 hnobj ht1 (by rw [ht1.id, hNP]; exact hj) (hB _ hxb) (hFB _ (List.getElem_mem _)) ?_ (fun _ _ h => h)
    intro s2 ht2 _ hx2 hf2 _
    refine ⟨ht2, by rw [hx2]; exact by_set hx1 hxb, ?_, ?_⟩
    · rw [hx2, e1, ← set_take_drop (by simp; omega) (by omega)]
      congr 1
      simp [poolAt, List.getElem?_eq_getElem (show o[j] < XX.length by omega)]
    · rw [hf2, e2, ← set_take_drop (by simp; omega) (by omega)]
      congr 1
      simp [poolAt, List.getElem?_eq_getElem (show o[j] < FF.length by omega)]
  · rintro _ s1 ⟨ht1, hx1, e1, e2⟩
    refine ⟨ht1, hx1, ?_⟩
    rw [List.take_of_length_le (by simp), List.drop_of_length_le (by omega), List.append_nil] at e1 e2
    rw [e1, e2]
    have : ∀ l : List (List (Fl K) × List (Fl K)), (l.map Prod.fst).zip (l.map Prod.snd) = l := by
      intro l; induction l with
      | nil => rfl
      | cons a l ih => simp [ih]
    rw [this]
    exact hbest

variable [FloorRing K]

/-- invariant of the main loop of `sga`, after `k` generations -/
structure SgaInv (P : AProb K) (s0 : St K σ) (k : Nat) (evals : List (List (Fl K) × List (Fl K))) (s : St K σ) : Prop where
  tr : TrackedBy (InBox P.lb P.ub P.nix) P s0 (asCalls evals) s
  xs : ∀ x ∈ s.pop.x, InBox P.lb P.ub P.nix x
  cnt : evals.length = k * (if P.info.stochastic then 2 * s0.pop.id.length else s0.pop.id.length)
  best : 0 < k → P.info.stochastic = false → BestOf (s.pop.x.zip s.pop.f) (s0.pop.x.zip s0.pop.f ++ evals)
  last : 0 < k → P.info.stochastic = true → ∃ early late, evals = early ++ late ∧ late.length = 2 * s0.pop.id.length ∧
    BestOf (s.pop.x.zip s.pop.f) late
  zero : k = 0 → s.pop = s0.pop

/-- What `sga::evolve` has done. `evals`: the points evaluated and their fitness. -/
structure SgaDone (P : AProb K) (gens : Nat) (s s' : St K σ) : Prop where
  inv : Inv P.info s'.pop
  id : s'.pop.id = s.pop.id
  box : ∀ x ∈ s'.pop.x, InBox P.lb P.ub P.nix x
  work : ∃ evals : List (List (Fl K) × List (Fl K)), s'.evs = s.evs ++ evals.map (fun p => (p.1, Except.ok p.2)) ∧
    (∀ p ∈ evals, InBox P.lb P.ub P.nix p.1) ∧ (∀ p ∈ evals, ∃ h, P.fit h p.1 = .ok p.2) ∧
    evals.length = gens * (if P.info.stochastic then 2 * s.pop.id.length else s.pop.id.length) ∧
    (0 < gens → P.info.stochastic = false → BestOf (s'.pop.x.zip s'.pop.f) (s.pop.x.zip s.pop.f ++ evals)) ∧
    (0 < gens → P.info.stochastic = true → ∃ early late, evals = early ++ late ∧ late.length = 2 * s.pop.id.length ∧
      BestOf (s'.pop.x.zip s'.pop.f) late)

omit [Field K] [LinearOrder K] [IsStrictOrderedRing K] [FloorRing K] in
theorem asCalls_append (a b : List (List (Fl K) × List (Fl K))) : asCalls a ++ asCalls b = asCalls (a ++ b) := by
  simp [asCalls]

/-- C66 (sga). For every population of at least two individuals inside the finite bounds of an unconstrained
single-objective problem (integer parts included), every fitness function (NaN and exceptions included), engine and
choice of operators: the IDs are unchanged; the points evaluated lie inside the bounds, are integral where they have to
be, and are `NP` per generation (twice as many if the problem is stochastic); if the problem is not stochastic the new
population consists of the best, in order, of the old population and all points evaluated; if it is stochastic, of the
best of the `2 NP` individuals evaluated with the last seed. -/
theorem C66_sga (v : SgaEnv K σ) (rep : K → Prop) (hg : v.g.Lawful rep) (hd : v.d.Lawful) (hs : ValidSort v.srt)
    (P : AProb K) (hP : FiniteBox P) (hint : IntBounds P) (hnobj : P.info.nobj = 1) (hnc : P.info.nc = 0) (A : Sga K)
    (hm : MutNum v A) (hsbx : A.cross = .sbx → SbxNum v A.etaC) (h0 : 0 < A.paramS) (hgens : A.gens + 1 < 2 ^ 32)
    (s : St K σ) (hi : Inv P.info s.pop) (hn : 2 ≤ s.pop.id.length) (hS : A.paramS ≤ s.pop.id.length)
    (heven : A.cross = .sbx → s.pop.id.length % 2 = 0) (hbox : ∀ x ∈ s.pop.x, InBox P.lb P.ub P.nix x)
    (fuel : Nat) (hfuel : A.gens < fuel) :
    wp (sgaEvolve v P A fuel) (fun _ s' => SgaDone P A.gens s s') (FailedBy (InBox P.lb P.ub P.nix) P s) s := by
  have hnf : P.info.nf = 1 := by simp only [Info.nf, Info.nc] at *; omega
  have hnx0 : 0 < P.info.nx := by rw [hP.nx]; exact List.length_pos_iff.mpr hP.bounds.nonempty
  have hB : ∀ x, InBox P.lb P.ub P.nix x → x.length = P.info.nx := fun x hx => by rw [hP.nx]; exact hx.1
  have hfl := hi.wf.fs
  have hxl := hi.wf.xs
  unfold sgaEvolve
  rw [if_neg (by omega), if_neg (by omega), wp_bind, wp_get', if_neg (by omega), if_neg (by omega),
    if_neg (fun h => h.2 (heven h.1))]
  split
  · rename_i hz
    refine ⟨hi, rfl, hbox, [], by simp, by simp, by simp, by simp [hz], ?_, ?_⟩ <;> intro h <;> omega
  · rw [wp_bind]
    refine (wp_of_wpn (wpn_genLoop (N := False) (E := FailedBy (InBox P.lb P.ub P.nix) P s) hgens
      (fun k _ s' => ∃ evals, SgaInv P s k evals s') ?_ fuel 0 () s (by omega) (by omega)
      ⟨[], by simpa [asCalls] using tracked_refl hi, hbox, by simp, by simp, by simp, fun _ => rfl⟩)).mono ?_ (fun _ _ h => h)
    · rintro k _ s1 hk ⟨evals, hI⟩
      refine wpn_of_wp ?_
      unfold sgaGen
      have rest : ∀ (s2 : St K σ) (ev2 : List (List (Fl K) × List (Fl K))),
          TrackedBy (InBox P.lb P.ub P.nix) P s (asCalls ev2) s2 → (∀ x ∈ s2.pop.x, InBox P.lb P.ub P.nix x) →
          ev2.length + s.pop.id.length = (k + 1) * (if P.info.stochastic then 2 * s.pop.id.length else s.pop.id.length) →
          (P.info.stochastic = false → (k = 0 → s2.pop = s.pop) ∧
            (0 < k → BestOf (s2.pop.x.zip s2.pop.f) (s.pop.x.zip s.pop.f ++ ev2))) →
          (P.info.stochastic = true → ∃ early, ev2 = early ++ s2.pop.x.zip s2.pop.f) →
          wp (do
            let s' ← Run.get
            let X ← onRng (sgaOffspring v P A s'.pop.x s'.pop.f)
            let F ← (List.range s.pop.id.length).foldlM (evalOne P X) s'.pop.f
            reinsert v.toEnv P s.pop.id.length X F
            pure ((), false))
            (fun r s' => r.2 = false ∧ ∃ evals, SgaInv P s (k + 1) evals s') (FailedBy (InBox P.lb P.ub P.nix) P s) s2 := by
        intro s2 ev2 ht2 hx2 hc2 hd2 hst2
        have hxl2 := ht2.inv.wf.xs
        have hfl2 := ht2.inv.wf.fs
        rw [ht2.id] at hxl2 hfl2
        rw [wp_bind, wp_get', wp_bind, wp_onRng]
        refine (wp_sgaOffspring hg hd hs hP hint hm hsbx hn heven h0 hS ⟨hxl2, hx2⟩ hfl2 s2.e).mono ?_ (fun _ _ h => h)
        intro X e hX
        rw [wp_bind]
        refine (wp_evalAll hB (tracked_rng ht2 e) hX ⟨hfl2, ht2.inv.wf.dimF⟩).mono ?_ (fun _ _ h => h)
        rintro F s3 ⟨hF, hpop, ht3⟩
        have hpop : s3.pop = s2.pop := hpop
        have hzip : (X.zip F).length = s.pop.id.length := by rw [List.length_zip, hX.1, hF.1, Nat.min_self]
        rw [wp_bind]
        refine (wp_reinsert hs hB hnx0 (by omega) ht3 rfl (by rw [hpop]; exact hx2) hX hF).mono ?_ (fun _ _ h => h)
        rintro _ s4 ⟨ht4, hx4, hb4⟩
        rw [wp_pure]
        rw [hpop] at hb4
        have hl4 : (s4.pop.x.zip s4.pop.f).length = s.pop.id.length := by
          rw [List.length_zip, ht4.inv.wf.xs, ht4.inv.wf.fs, ht4.id, Nat.min_self]
        have hl2 : (s2.pop.x.zip s2.pop.f).length = s.pop.id.length := by
          rw [List.length_zip, hxl2, hfl2, Nat.min_self]
        refine ⟨rfl, ev2 ++ X.zip F, by rw [← asCalls_append]; exact ht4, hx4, by rw [List.length_append, hzip]; exact hc2, ?_, ?_, fun h => absurd h (by omega)⟩
        · intro _ hst
          obtain ⟨hz, hp⟩ := hd2 hst
          rcases Nat.eq_zero_or_pos k with h | h
          · rw [hz h] at hb4
            have : ev2 = [] := by
              rw [hst, h] at hc2
              exact List.length_eq_zero_iff.mp (by simpa using hc2)
            rw [this, List.nil_append]
            obtain ⟨⟨r, p, le⟩, so⟩ := hb4
            exact ⟨⟨r, p.trans List.perm_append_comm, le⟩, so⟩
          · rw [← List.append_assoc]
            exact bestOf_trans (hp h) hb4 (by omega)
        · intro _ hst
          obtain ⟨early, he⟩ := hst2 hst
          refine ⟨early, s2.pop.x.zip s2.pop.f ++ X.zip F, by rw [he, List.append_assoc], by rw [List.length_append]; omega, ?_⟩
          obtain ⟨⟨r, p, le⟩, so⟩ := hb4
          exact ⟨⟨r, p.trans List.perm_append_comm, le⟩, so⟩
      rw [wp_bind]
      refine wp_reSeed hg hB hnx0 (by omega) hI.tr hI.xs ?_ ?_
      · intro hst
        refine rest s1 evals hI.tr hI.xs ?_ (fun _ => ⟨hI.zero, fun h => hI.best h hst⟩) (fun h => by rw [hst] at h; cases h)
        have := hI.cnt
        rw [hst] at this ⊢
        simp at this ⊢
        rw [this]; ring
      · intro hst s2 ht2 hx2
        rw [asCalls_append] at ht2
        refine rest s2 _ ht2 (by rw [hx2]; exact hI.xs) ?_ (fun h => by rw [hst] at h; cases h) (fun _ => ⟨evals, rfl⟩)
        have hl : (s2.pop.x.zip s2.pop.f).length = s.pop.id.length := by
          rw [List.length_zip, ht2.inv.wf.xs, ht2.inv.wf.fs, ht2.id, Nat.min_self]
        have := hI.cnt
        rw [hst] at this ⊢
        simp only [if_true] at this ⊢
        rw [List.length_append, hl, this]; ring
    · rintro _ s' ⟨evals, h⟩
      rw [wp_pure]
      refine ⟨h.tr.inv, h.tr.id, h.xs, evals, h.tr.evs, ?_, ?_, h.cnt, h.best, h.last⟩
      · intro p hp
        exact h.tr.box _ (List.mem_map_of_mem (f := fun p => (p.1, Except.ok p.2)) hp)
      · intro p hp
        obtain ⟨hh, h'⟩ := h.tr.user _ (List.mem_map_of_mem (f := fun p => (p.1, Except.ok p.2)) hp)
        exact ⟨hh, h'.symm⟩

end

/-- C66 (sga, best). For every individual of the old population there is one in the new population whose objective is
not larger (NaN counts as larger than every number). -/
theorem C66_sga_best {P : AProb K} {gens : Nat} {s s' : St K σ} (h : SgaDone P gens s s') (hst : P.info.stochastic = false)
    (h1 : 0 < s.pop.id.length) : ∀ a ∈ s.pop.x.zip s.pop.f, 0 < gens → ∃ b ∈ s'.pop.x.zip s'.pop.f, objOf b ≤ objOf a := by
  intro a ha hgens
  obtain ⟨evals, -, -, -, -, hb, -⟩ := h.work
  obtain ⟨⟨rest, hp, hle⟩, -⟩ := hb hgens hst
  rcases List.mem_append.mp (hp.mem_iff.mpr (List.mem_append_left evals ha)) with h' | h'
  · exact ⟨a, h', le_rfl⟩
  · have hl : (s'.pop.x.zip s'.pop.f).length = s.pop.id.length := by
      rw [List.length_zip, h.inv.wf.xs, h.inv.wf.fs, h.id, Nat.min_self]
    obtain ⟨b, hb⟩ := List.exists_mem_of_length_pos (by rw [hl]; exact h1)
    exact ⟨b, hb, hle b hb a h'⟩

/-- C66 (sga, errors). -/
theorem C66_sga_throws [FloorRing K] (v : SgaEnv K σ) (P : AProb K) (A : Sga K) (fuel : Nat) (s : St K σ)
    (h : P.info.nc ≠ 0 ∨ P.info.nf ≠ 1 ∨ s.pop.id.length < 2 ∨ s.pop.id.length < A.paramS ∨
      (A.cross = .sbx ∧ s.pop.id.length % 2 ≠ 0)) :
    sgaEvolve v P A fuel s = (.throws .invalidArgument, s) := by
  unfold sgaEvolve
  split
  · rfl
  · split
    · rfl
    · rename_i h1 h2
      show Run.bind _ _ s = _
      simp only [Run.bind, Run.get]
      split
      · rfl
      · split
        · rfl
        · split
          · rfl
          · rename_i h3 h4 h5
            exfalso
            rcases h with h | h | h | h | h
            · exact h1 h
            · exact h2 h
            · exact h3 h
            · exact h4 h
            · exact h5 h

/-- inside the range, or NaN -/
def NanOr (lo hi : K) (a : Fl K) : Prop := a = .nan ∨ (.fin lo ≤ a ∧ a ≤ .fin hi)

omit [Field K] in
theorem nanOr_iff (lo hi : K) (a : Fl K) : NanOr lo hi a ↔ (Fl.lt a (.fin lo) || Fl.gt a (.fin hi)) = false := by
  unfold NanOr
  cases a <;> simp [Fl.lt, Fl.gt, Fl.le_def, Fl.cls]

theorem crossOf_iff (s : String) (c : SgaCross) : sgaCrossOf s = some c ↔
    (s, c) ∈ [("exponential", SgaCross.exponential), ("binomial", .binomial), ("single", .single), ("sbx", .sbx)] := by
  unfold sgaCrossOf
  split
  · rename_i h; subst h; cases c <;> decide
  · split
    · rename_i h; subst h; cases c <;> decide
    · split
      · rename_i h; subst h; cases c <;> decide
      · split
        · rename_i h; subst h; cases c <;> decide
        · simp [*]

theorem mutOf_iff (s : String) (c : SgaMut) : sgaMutOf s = some c ↔
    (s, c) ∈ [("gaussian", SgaMut.gaussian), ("uniform", .uniform), ("polynomial", .polynomial)] := by
  unfold sgaMutOf
  split
  · rename_i h; subst h; cases c <;> decide
  · split
    · rename_i h; subst h; cases c <;> decide
    · split
      · rename_i h; subst h; cases c <;> decide
      · simp [*]

theorem selOf_iff (s : String) (c : SgaSel) : sgaSelOf s = some c ↔
    (s, c) ∈ [("tournament", SgaSel.tournament), ("truncated", .truncated)] := by
  unfold sgaSelOf
  split
  · rename_i h; subst h; cases c <;> decide
  · split
    · rename_i h; subst h; cases c <;> decide
    · simp [*]

/-- C66 (sga, constructor). It succeeds exactly for parameters in the documented ranges, where NaN counts as inside;
otherwise it throws `std::invalid_argument`. -/
theorem C66_sga_ctor (gens : Nat) (cr etaC m paramM : Fl K) (paramS : Nat) (cross mutn sel : String) :
    (∀ A : Sga K, sgaCtor gens cr etaC m paramM paramS cross mutn sel = .ok A ↔
      (A.gens = gens ∧ A.cr = cr ∧ A.etaC = etaC ∧ A.m = m ∧ A.paramM = paramM ∧ A.paramS = paramS) ∧
      (cross, A.cross) ∈ [("exponential", SgaCross.exponential), ("binomial", .binomial), ("single", .single), ("sbx", .sbx)] ∧
      (mutn, A.mutn) ∈ [("gaussian", SgaMut.gaussian), ("uniform", .uniform), ("polynomial", .polynomial)] ∧
      (sel, A.sel) ∈ [("tournament", SgaSel.tournament), ("truncated", .truncated)] ∧
      NanOr 0 1 cr ∧ NanOr 1 100 etaC ∧ NanOr 0 1 m ∧ 0 < paramS ∧
      (mutn = "polynomial" → NanOr 1 100 paramM) ∧ (mutn ≠ "polynomial" → NanOr 0 1 paramM)) ∧
    ((∃ A, sgaCtor gens cr etaC m paramM paramS cross mutn sel = .ok A) ∨
      sgaCtor gens cr etaC m paramM paramS cross mutn sel = .throws .invalidArgument) := by
  constructor
  · intro A
    have hpoly : ∀ mu, sgaMutOf mutn = some mu → (mu = .polynomial ↔ mutn = "polynomial") := by
      intro mu h
      rw [mutOf_iff] at h
      simp at h
      rcases h with ⟨rfl, rfl⟩ | ⟨rfl, rfl⟩ | ⟨rfl, rfl⟩ <;> decide
    rw [← crossOf_iff, ← mutOf_iff, ← selOf_iff]
    simp only [nanOr_iff]
    unfold sgaCtor
    constructor
    · intro h
      split at h
      · cases h
      · rename_i c1
        split at h
        · cases h
        · rename_i c2
          split at h
          · cases h
          · rename_i c3
            split at h
            · cases h
            · rename_i c4
              split at h
              · rename_i mu se cx e1 e2 e3
                split at h
                · cases h
                · rename_i c5
                  split at h
                  · cases h
                  · rename_i c6
                    cases h
                    have hp := hpoly mu e1
                    refine ⟨⟨rfl, rfl, rfl, rfl, rfl, rfl⟩, e3, e1, e2, by rw [Bool.or_comm]; simpa using c1, by simpa using c2, by simpa using c3, by omega, ?_, ?_⟩
                    · intro h
                      simpa [hp.mpr h] using c5
                    · intro h
                      have : mu ≠ .polynomial := fun h' => h (hp.mp h')
                      simpa [this] using c6
              · cases h
    · rintro ⟨⟨rfl, rfl, rfl, rfl, rfl, rfl⟩, e3, e1, e2, c1, c2, c3, c4, c5, c6⟩
      have hp := hpoly _ e1
      rw [e1, e2, e3, Bool.or_comm, c1, c2, c3, if_neg (by simp), if_neg (by simp), if_neg (by simp), if_neg (by omega)]
      dsimp only
      by_cases h : A.mutn = .polynomial
      · have := c5 (hp.mp h)
        simp [h, this]
        cases A; simp_all
      · have := c6 (fun h' => h (hp.mpr h'))
        simp [h, this]
  · unfold sgaCtor
    split
    · exact Or.inr rfl
    · split
      · exact Or.inr rfl
      · split
        · exact Or.inr rfl
        · split
          · exact Or.inr rfl
          · split
            · split
              · exact Or.inr rfl
              · split
                · exact Or.inr rfl
                · exact Or.inl ⟨_, rfl⟩
            · exact Or.inr rfl

/-- C66 (sga, NaN). The constructor accepts NaN as the mutation probability; then mutation is undefined behaviour
(`std::binomial_distribution` requires a probability). -/
theorem C66_sga_nan [FloorRing K] [IsStrictOrderedRing K] (v : SgaEnv K σ) (lb ub : List (Fl K)) (nix : Nat) (x : List (Fl K)) (e : σ)
    (hd : v.d.Lawful) :
    ∃ A : Sga K, sgaCtor 1 (.fin (9 / 10)) (.fin 1) .nan (.fin 1) 2 "exponential" "polynomial" "tournament" = .ok A ∧
      (sgaMutate v A lb ub nix [x] e).1 = .ub := by
  refine ⟨⟨1, .fin (9 / 10), .fin 1, .nan, .fin 1, 2, .exponential, .polynomial, .tournament⟩, ?_, ?_⟩
  · rw [(C66_sga_ctor _ _ _ _ _ _ _ _ _).1]
    refine ⟨⟨rfl, rfl, rfl, rfl, rfl, rfl⟩, by simp, by simp, by simp, Or.inr ?_, Or.inr ?_, Or.inl rfl, by omega,
      fun _ => Or.inr ?_, fun h => absurd rfl h⟩
    · simp only [Fl.fin_le_fin]; constructor <;> norm_num
    · simp only [Fl.fin_le_fin]; constructor <;> norm_num
    · simp only [Fl.fin_le_fin]; constructor <;> norm_num
  · have hp := hd.perm_perm (List.range lb.length).length e
    obtain ⟨l, h1, -, -⟩ := gather_spec (List.range lb.length) (v.d.perm (List.range lb.length).length e).1 (fun i hi => by
      simpa using hp.mem_iff.mp hi)
    rw [List.length_range] at h1
    simp [sgaMutate, mutOne, Dist.shuffle, Dist.drawBinom, Bind.bind, Run.bind, h1]

/-- C66 (sga, integers). With an integer bound outside the range of `int`, uniform mutation of that variable is undefined
behaviour. -/
theorem C66_sga_int [FloorRing K] [IsStrictOrderedRing K] (v : SgaEnv K σ) (A : Sga K) (hA : A.mutn = .uniform) (x : Fl K) (e : σ) :
    (mutGene v A false (.fin 0) (.fin (2 ^ 31)) x e).1 = .ub := by
  have h1 : castInt (Fl.fin (0 : K)) = .ok 0 := by
    have := castInt_int (K := K) (z := 0) (by norm_num) (by norm_num)
    simpa using this
  have h2 : castInt (Fl.fin (2 ^ 31 : K)) = .ub := by
    have : (2 ^ 31 : K) = ((2 ^ 31 : ℤ) : K) := by push_cast; norm_num
    rw [this]
    unfold castInt
    simp only [Int.floor_intCast, Int.ceil_intCast, ite_self]
    rw [if_pos (by norm_num)]
  simp [mutGene, hA, randInt, Bind.bind, Run.bind, Run.lift, h1, h2]

/-! ### The arithmetic, and non-triviality -/

section
variable [IsStrictOrderedRing K]

/-- Exact arithmetic with any `pow` with the laws of `PowLaws`, and a rounding to integers. -/
theorem mutNum_exact [FloorRing K] (v : SgaEnv K σ) (hop : v.op = Fl.exact K) (hpw : PowLaws v.pw) (hrd : ∀ a : K, v.rd (.fin a) = .fin ((round a : ℤ) : K))
    (A : Sga K) (m p : K) (hm : A.m = .fin m) (h0 : 0 ≤ m) (h1 : m ≤ 1) (hp : A.paramM = .fin p) (hp0 : 0 ≤ p) : MutNum v A where
  noOver := by rw [hop]; exact noOverflow_exact
  intAdd z w := ⟨z + w, by rw [hop]; simp [Fl.exact, Fl.add]⟩
  round a := ⟨round a, hrd a⟩
  one := ⟨1, by rw [hop]; rfl⟩
  m := ⟨m, hm, h0, h1⟩
  paramM := ⟨p, hp⟩
  pow _ r hr0 hr1 := by
    have hne : (1 : K) + p ≠ 0 := by linarith
    have e : v.op.div v.op.one (v.op.add v.op.one A.paramM) = .fin (1 / (1 + p)) := by
      rw [hop, hp]; simp [Fl.exact, Fl.add, Fl.div, hne]
    have hq : (0 : K) ≤ 1 / (1 + p) := by positivity
    rw [e, hop]
    constructor
    · intro h
      have : (Fl.exact K).mul Genetic.two (.fin r) = .fin (2 * r) := by simp [Fl.exact, Fl.mul, Genetic.two]
      rw [this]
      obtain ⟨k, hk, -, -⟩ := between_cases (hpw.nonneg (.fin (2 * r)) (.fin (1 / (1 + p))) (by simp) (by simp) (by simp; linarith)).2
        (hpw.le_one _ _ (by simp; linarith) (by simp; linarith) (by simp) (by simpa using hq))
      exact ⟨k, hk⟩
    · intro h
      have : (Fl.exact K).mul Genetic.two ((Fl.exact K).sub (Fl.exact K).one (.fin r)) = .fin (2 * (1 + -r)) := by
        simp [Fl.exact, Fl.mul, Fl.sub, Fl.add, Fl.neg, Genetic.two]
      rw [this]
      obtain ⟨k, hk, -, -⟩ := between_cases (hpw.nonneg (.fin (2 * (1 + -r))) (.fin (1 / (1 + p))) (by simp) (by simp) (by simp; linarith)).2
        (hpw.le_one _ _ (by simp; linarith) (by simp; linarith) (by simp) (by simpa using hq))
      exact ⟨k, hk⟩

theorem sbxNum_exact (v : SgaEnv K σ) (hop : v.op = Fl.exact K) (hpw : PowLaws v.pw) (eta : K) (he : -1 ≤ eta) : SbxNum v (.fin eta) := by
  intro l u a b r ha1 ha2 hb1 hb2 hr0 hr1 hgt
  rw [hop] at hgt ⊢
  have hab : a ≠ b := by
    rintro rfl
    simp [Fl.gt, Fl.exact, Fl.sub, Fl.neg, Fl.add, Fl.abs, Fl.lt, Genetic.tiny] at hgt
    exact absurd hgt (not_lt.mpr (by positivity))
  by_cases hlt : a < b
  · rw [show (Fl.lt (Fl.fin a) (.fin b)) = true by simp [Fl.lt, hlt], if_pos rfl]
    exact sbxValues_spec hpw ha1 hlt hb2 he hr0 hr1
  · rw [show (Fl.lt (Fl.fin a) (.fin b)) = false by simp [Fl.lt, hlt], if_neg (by simp)]
    exact sbxValues_spec hpw hb1 (lt_of_le_of_ne (not_lt.mp hlt) (Ne.symm hab)) ha2 he hr0 hr1

end

section

/-- C66 (sga, truncated selection). The individuals selected are the `param_s` best, in order, over and over again. -/
theorem C66_truncated (v : SgaEnv K σ) (hs : ValidSort v.srt) (A : Sga K) (hA : A.sel = .truncated) (F : List (List (Fl K)))
    (h0 : 0 < A.paramS) (hS : A.paramS ≤ F.length) (E : Exn → σ → Prop) (e : σ) :
    wp (sgaSelect v A F) (fun l _ => l.length = F.length ∧ ∃ best : List Nat, best.Perm (List.range F.length) ∧
      best.Pairwise (fun a b => obj0 F a ≤ obj0 F b) ∧ ∀ i, i < F.length → l[i]? = best[i % A.paramS]?) E e := by
  unfold sgaSelect
  rw [hA]
  obtain ⟨o, h1, h2, h2'⟩ := sort_obj hs F
  dsimp only
  rw [wp_bind, h1, wp_lift_ok]
  unfold truncate
  have hol : o.length = F.length := by rw [h2.length_eq]; simp
  obtain ⟨l, h3, h4, h5⟩ := gather_spec o ((List.range F.length).map (fun i => i % A.paramS)) (by
    intro i hi
    obtain ⟨j, _, rfl⟩ := List.mem_map.mp hi
    have := Nat.mod_lt j h0
    omega)
  rw [h3, wp_lift_ok]
  exact ⟨by simpa using h4, o, h2, h2', fun i hi => h5 i _ (by simp [hi])⟩

/-- `w` wins the tournament of `part` -/
def WinsAmong (F : List (List (Fl K))) (part : List Nat) (w : Nat) : Prop :=
  w ∈ part ∧ ∀ c ∈ part, obj0 F w ≤ obj0 F c

private theorem tourBest_fold {F : List (List (Fl K))} (hF : ∀ f ∈ F, ∃ a, f = [a] ∧ a ≠ Fl.nan) {b : List Nat} (hb : IdxIn F.length b) :
    ∀ (l : List Nat) (done : List Nat) (w : Nat), (∀ i ∈ l, i < b.length) → (∀ i ∈ done, i < F.length) → WinsAmong F done w →
      (l.foldlM (tourBest F b) w).Sat (fun w' => WinsAmong F (done ++ l.map (fun i => b.getD i 0)) w') := by
  have obj : ∀ i (hi : i < F.length), F[i] = [obj0 F i] ∧ obj0 F i ≠ Fl.nan := by
    intro i hi
    obtain ⟨a, ha, hn⟩ := hF _ (List.getElem_mem hi)
    have : obj0 F i = a := by simp [obj0, List.getD, hi, ha]
    exact ⟨by rw [this]; exact ha, by rw [this]; exact hn⟩
  intro l
  induction l with
  | nil => intro done w _ _ h; rw [List.foldlM_nil]; exact Outcome.sat_ok.mpr (by simpa using h)
  | cons i l ih =>
    intro done w hl hd hw
    have hi := hl i (by simp)
    have hbi := hb _ (List.getElem_mem hi)
    have hwl := hd w hw.1
    rw [List.foldlM_cons]
    refine Outcome.Sat.bind (P := WinsAmong F (done ++ [b[i]])) ?_ (fun w' hw' => ?_)
    · unfold tourBest
      rw [Outcome.get_of_lt hi, Outcome.bind_ok, Outcome.get_of_lt hbi, Outcome.bind_ok, Outcome.get_of_lt hwl, Outcome.bind_ok, Outcome.sat_ok]
      obtain ⟨e1, n1⟩ := obj _ hbi
      obtain ⟨e2, n2⟩ := obj _ hwl
      have hlt : Pop.vecLt F[b[i]] F[w] = true ↔ obj0 F b[i] < obj0 F w := by
        rw [vecLt_single (by rw [e1]; rfl) (by rw [e2]; rfl) (by rw [e1]; simpa using Ne.symm n1) (by rw [e2]; simpa using Ne.symm n2), e1, e2]
        simp [Lower]
      split
      · rename_i h
        rw [hlt] at h
        refine ⟨by simp, fun c hc => ?_⟩
        rcases List.mem_append.mp hc with hc | hc
        · exact h.le.trans (hw.2 c hc)
        · rw [List.mem_singleton.mp hc]
      · rename_i h
        rw [hlt] at h
        refine ⟨by simp [hw.1], fun c hc => ?_⟩
        rcases List.mem_append.mp hc with hc | hc
        · exact hw.2 c hc
        · rw [List.mem_singleton.mp hc]; exact not_lt.mp h
    · refine (ih (done ++ [b[i]]) w' (fun j hj => hl j (by simp [hj])) ?_ hw').mono ?_
      · intro j hj
        rcases List.mem_append.mp hj with hj | hj
        · exact hd j hj
        · rw [List.mem_singleton.mp hj]; exact hbi
      · intro w'' h
        simpa [List.append_assoc, List.getElem?_eq_getElem hi] using h

/-- C66 (sga, tournament selection). Each individual selected is the best one of `param_s` different individuals (if no
fitness is NaN). -/
theorem C66_tournament (v : SgaEnv K σ) (rep : K → Prop) (hg : v.g.Lawful rep) (A : Sga K) (hA : A.sel = .tournament) (F : List (List (Fl K)))
    (hF : ∀ f ∈ F, ∃ a, f = [a] ∧ a ≠ Fl.nan) (h0 : 0 < A.paramS) (hS : A.paramS ≤ F.length) (E : Exn → σ → Prop) (e : σ) :
    wp (sgaSelect v A F) (fun l _ => l.length = F.length ∧ ∀ w ∈ l, ∃ part : List Nat, part.length = A.paramS ∧ part.Nodup ∧
      (∀ c ∈ part, c < F.length) ∧ WinsAmong F part w) E e := by
  unfold sgaSelect
  rw [hA]
  dsimp only
  rw [wp_bind]
  refine (wp_range (fun k (r : List Nat × List Nat) _ => r.1.length = k ∧ (∀ w ∈ r.1, ∃ part : List Nat, part.length = A.paramS ∧ part.Nodup ∧
    (∀ c ∈ part, c < F.length) ∧ WinsAmong F part w) ∧ r.2.Perm (List.range F.length)) F.length _ e
    ⟨rfl, by simp, List.Perm.refl _⟩ ?_).mono ?_ (fun _ _ h => h)
  · rintro k r e hk ⟨h1, h2, h3⟩
    unfold tournament
    rw [wp_bind]
    refine (wp_range (fun _ (b : List Nat) _ => b.Perm (List.range F.length)) A.paramS r.2 e h3 ?_).mono ?_ (fun _ _ h => h)
    · rintro i b e' hi hb
      have hbl : b.length = F.length := by simpa using hb.length_eq
      unfold tourSwap
      rw [wp_bind]
      refine Gen.wp_drawNat hg (by omega) (fun idx e'' h4 h5 => ?_)
      rw [wp_bind, wp_lift_get (by omega), wp_bind, wp_lift_get (by omega), wp_bind, wp_lift_set (by omega), wp_lift_set (by simp; omega)]
      exact (List.set_set_perm (by omega) (by omega)).trans hb
    · intro b e' hb
      have hbl : b.length = F.length := by simpa using hb.length_eq
      have hbi : IdxIn F.length b := fun i hi => by simpa using hb.mem_iff.mp hi
      rw [wp_bind, wp_lift_get (by omega), wp_bind]
      obtain ⟨w, hw1, hw2⟩ := tourBest_fold hF hbi (List.range' 1 (A.paramS - 1)) [b[0]] b[0]
        (fun i hi => by simp [List.mem_range'_1] at hi; omega) (by simpa using hbi _ (List.getElem_mem _)) ⟨by simp, by simp⟩
      rw [hw1, wp_lift_ok, wp_pure]
      have et : [b[0]] ++ (List.range' 1 (A.paramS - 1)).map (fun i => b.getD i 0) = b.take A.paramS := by
        apply List.ext_getElem?
        intro i
        match i with
        | 0 => simp [List.getElem?_take, h0]
        | i + 1 =>
          rw [List.getElem?_take]
          by_cases hi : i + 1 < A.paramS
          · rw [if_pos hi]
            simp only [List.singleton_append, List.getElem?_cons_succ, List.getElem?_map]
            rw [List.getElem?_range' (by omega)]
            simp [List.getD, Nat.add_comm 1 i, List.getElem?_eq_getElem (show i + 1 < b.length by omega)]
          · rw [if_neg hi]
            simp
            omega
      rw [et] at hw2
      refine ⟨by simp [h1], ?_, hb⟩
      intro w' hw'
      rcases List.mem_append.mp hw' with hw' | hw'
      · exact h2 w' hw'
      · rw [List.mem_singleton.mp hw']
        exact ⟨b.take A.paramS, by simp; omega, (hb.nodup_iff.mpr List.nodup_range).sublist (List.take_sublist _ _),
          fun c hc => hbi c (List.mem_of_mem_take hc), hw2⟩
  · rintro r e ⟨h1, h2, -⟩
    exact ⟨h1, h2⟩

end

def sgaDist : Dist ℚ (List ℚ) := ⟨fun e => (e.headD 0, e.tail), fun n _ e => (n, e), fun n e => ((List.range n).reverse, e)⟩

theorem sgaDist_lawful : sgaDist.Lawful where
  binom_le _ _ _ := le_rfl
  perm_perm _ _ := List.reverse_perm _

def sgaRound : Fl ℚ → Fl ℚ
  | .fin q => .fin ((round q : ℤ) : ℚ)
  | a => a

/-- `pow` is not used by the operators of the example. -/
def sgaDemoEnv : SgaEnv ℚ (List ℚ) := { algDemoEnv with d := sgaDist, pw := fun _ _ => .fin 1, rd := sgaRound }

def sgaDemo : Sga ℚ := ⟨3, .fin (9 / 10), .fin 1, .fin (1 / 2), .fin (1 / 10), 2, .single, .gaussian, .tournament⟩

theorem sgaDemo_num : MutNum sgaDemoEnv sgaDemo where
  noOver := noOverflow_exact
  intAdd z w := ⟨z + w, by simp [sgaDemoEnv, algDemoEnv, Fl.exact, Fl.add]⟩
  round a := ⟨round a, rfl⟩
  one := ⟨1, rfl⟩
  m := ⟨1 / 2, rfl, by norm_num, by norm_num⟩
  paramM := ⟨1 / 10, rfl⟩
  pow h := by cases h

example : wp (sgaEvolve sgaDemoEnv algDemo sgaDemo 4)
    (fun _ s' => SgaDone algDemo 3 deDemoSt s') (FailedBy (InBox algDemo.lb algDemo.ub algDemo.nix) algDemo deDemoSt) deDemoSt :=
  C66_sga sgaDemoEnv _ demoGen_lawful sgaDist_lawful insSort_valid algDemo algDemo_finiteBox
    (by intro i z h h'; simp [algDemo] at h h'; match i with | 0 => omega | i + 1 => simp at h')
    rfl rfl sgaDemo sgaDemo_num nofun (by decide) (by decide) deDemoSt deDemo_inv (by decide) (by decide) nofun deDemo_box 4 (by decide)

example : (sgaEvolve sgaDemoEnv algDemo sgaDemo 4 deDemoSt).2.pop.f ≠ deDemoSt.pop.f ∧
    (sgaEvolve sgaDemoEnv algDemo sgaDemo 4 deDemoSt).2.evs.length = 15 := by
  decide +kernel

/-- the operators that use `pow`, over the reals -/
example (v : SgaEnv ℝ σ) (hop : v.op = Fl.exact ℝ) (hpw : v.pw = powR) (hrd : ∀ a : ℝ, v.rd (.fin a) = .fin ((round a : ℤ) : ℝ)) :
    MutNum v ⟨3, .fin (9 / 10), .fin 1, .fin (1 / 2), .fin 20, 2, .sbx, .polynomial, .truncated⟩ ∧ SbxNum v (.fin (1 : ℝ)) :=
  ⟨mutNum_exact v hop (hpw ▸ powR_laws) hrd _ (1 / 2) 20 rfl (by norm_num) (by norm_num) rfl (by norm_num),
    sbxNum_exact v hop (hpw ▸ powR_laws) 1 (by norm_num)⟩

/-- selection by truncation and by tournament -/
example : (sgaSelect sgaDemoEnv { sgaDemo with sel := .truncated } [[.fin 9], [.fin 1], [.fin 4]] []).1 = .ok [1, 2, 1] := by decide +kernel

example : wp (sgaSelect sgaDemoEnv sgaDemo [[.fin 9], [.fin 1], [.fin 4]]) (fun l _ => l.length = 3 ∧ ∀ w ∈ l, ∃ part : List Nat, part.length = 2 ∧ part.Nodup ∧
      (∀ c ∈ part, c < 3) ∧ WinsAmong [[Fl.fin (9 : ℚ)], [.fin 1], [.fin 4]] part w) (fun _ _ => False) [1, 1, 0, 0, 0, 1] :=
  C66_tournament sgaDemoEnv _ demoGen_lawful sgaDemo rfl [[.fin 9], [.fin 1], [.fin 4]] (by simp) (by decide) (by decide) _ _

example : (sgaSelect sgaDemoEnv sgaDemo [[.fin 9], [.fin 1], [.fin 4]] [1, 1, 0, 0, 0, 1]).1 = .ok [2, 2, 1] := by decide +kernel

/-- NaN wins the tournament if it is the first participant. -/
example : (sgaSelect sgaDemoEnv { sgaDemo with paramS := 3 } [[.nan], [.fin 1], [.fin 4]] []).1 = .ok [0, 0, 0] := by decide +kernel

end Verif.Props
