import Verif.Model.Nsga2
import Verif.Proof.Mbh
import Verif.Props.Crowding
import Verif.Props.Counters

/-!
# Helper lemmas for `Verif.Props.Nsga2`
-/

set_option autoImplicit false

namespace Verif.Props

open Verif Run Prob Pop Alg Genetic MO Spec

variable {K σ : Type}

/-! ## Ranks and crowding distances -/

section
variable [LinearOrder K]

/-- Crowding distance of the point at position `k` of the front `f` as the algorithm sees it: infinite in a front of at
most two points, otherwise what `crowding_distance` says for the points of the front. -/
def FrontCd (op : Fl.Ops K) (srt : (Nat → Nat → Bool) → List Nat → List Nat) (fs : List (List (Fl K))) (f : List Nat) (k : Nat)
    (w : Fl K) : Prop :=
  f.length ≤ 2 ∧ w = .pinf ∨
  3 ≤ f.length ∧ ∃ (fits : List (List (Fl K))) (c : List (Fl K)), fits.map some = f.map (fun i => fs[i]?) ∧
    crowdingDistance op srt fits = .ok c ∧ c[k]? = some w

theorem mo_fits {pts : List (List (Fl K))} {f : List Nat} (h : ∀ i ∈ f, i < pts.length) :
    (f.mapM (fun i => Outcome.get pts i)).Sat (fun fits => fits.map some = f.map (fun i => pts[i]?) ∧
      fits.length = f.length ∧ ∀ p ∈ fits, p ∈ pts) := by
  refine (Outcome.mapM_sat_forall₂ (P := fun i p => pts[i]? = some p) f ?_).mono ?_
  · intro i hi
    rw [Outcome.get_of_lt (h i hi), Outcome.sat_ok]
    exact List.getElem?_eq_getElem (h i hi)
  · rintro fits ⟨hl, hf⟩
    have key : ∀ m, m < fits.length → ∃ i p, f[m]? = some i ∧ fits[m]? = some p ∧ pts[i]? = some p := by
      intro m hm
      have hm' : m < f.length := by omega
      exact ⟨f[m], fits[m], List.getElem?_eq_getElem hm', List.getElem?_eq_getElem hm,
        hf m _ _ (List.getElem?_eq_getElem hm') (List.getElem?_eq_getElem hm)⟩
    refine ⟨?_, hl, ?_⟩
    · apply List.ext_getElem?
      intro m
      rw [List.getElem?_map, List.getElem?_map]
      by_cases hm : m < fits.length
      · obtain ⟨i, p, h1, h2, h3⟩ := key m hm
        rw [h1, h2, Option.map_some, Option.map_some, h3]
      · rw [List.getElem?_eq_none (by omega), List.getElem?_eq_none (by omega)]; rfl
    · intro p hp
      obtain ⟨m, hm, rfl⟩ := List.getElem_of_mem hp
      obtain ⟨i, p, h1, h2, h3⟩ := key m hm
      rw [List.getElem?_eq_getElem hm] at h2
      cases h2
      exact List.mem_of_getElem? h3

variable [Field K]

theorem nsgaFront_spec (v : MoEnv K σ) (hsrt : ValidSort v.srt) {fs : List (List (Fl K))} {M NP : Nat} (hM : ∀ p ∈ fs, p.length = M)
    (h2 : 2 ≤ M) (hNP : fs.length = NP) {cd : List (Fl K)} (hcd : cd.length = NP) {f : List Nat} (hf : ∀ i ∈ f, i < NP)
    (hnd : f.Nodup) (hne : f ≠ []) :
    (nsgaFront v fs cd f).Sat (fun r => r.length = NP ∧ (∀ a, a ∉ f → r[a]? = cd[a]?) ∧
      ∀ (k a : Nat), f[k]? = some a → ∃ w, r[a]? = some w ∧ FrontCd v.op v.srt fs f k w) := by
  unfold nsgaFront
  split
  · rename_i h1
    match f, h1 with
    | [a], _ =>
      have ha : a < cd.length := by rw [hcd]; exact hf a (by simp)
      show (Outcome.bind (.ok a) fun a => Outcome.set cd a .pinf).Sat _
      simp only [Outcome.bind, Outcome.set, if_pos ha, Outcome.sat_ok]
      refine ⟨by simpa using hcd, ?_, ?_⟩
      · intro b hb
        rw [List.getElem?_set_ne (by simpa using fun h => hb (by simp [h]))]
      · intro k b hk
        match k with
        | 0 => simp at hk; subst hk; exact ⟨.pinf, by simp [ha], Or.inl ⟨by simp, rfl⟩⟩
        | k + 1 => simp at hk
  split
  · rename_i _ h1
    match f, h1 with
    | [a, b], _ =>
      have ha : a < cd.length := by rw [hcd]; exact hf a (by simp)
      have hb : b < cd.length := by rw [hcd]; exact hf b (by simp)
      have hb' : b < (cd.set a .pinf).length := by simpa using hb
      have hab : a ≠ b := by simpa using hnd
      show (Outcome.bind _ _).Sat _
      simp only [Outcome.get, List.getElem?_cons_zero, List.getElem?_cons_succ, Outcome.bind, Outcome.set, if_pos ha]
      show (Outcome.bind (.ok b) fun b => Outcome.bind (.ok (cd.set a .pinf)) fun cd => Outcome.set cd b .pinf).Sat _
      simp only [Outcome.bind, Outcome.set, if_pos hb', Outcome.sat_ok]
      refine ⟨by simpa using hcd, ?_, ?_⟩
      · intro c hc
        simp only [List.mem_cons, List.not_mem_nil, or_false, not_or] at hc
        rw [List.getElem?_set_ne (Ne.symm hc.2), List.getElem?_set_ne (Ne.symm hc.1)]
      · intro k c hk
        match k with
        | 0 =>
          simp at hk; subst hk
          exact ⟨.pinf, by rw [List.getElem?_set_ne (Ne.symm hab)]; simp [ha], Or.inl ⟨by simp, rfl⟩⟩
        | 1 => simp at hk; subst hk; exact ⟨.pinf, by simp [hb], Or.inl ⟨by simp, rfl⟩⟩
        | k + 2 => simp at hk
  · rename_i n1 n2
    have h3 : 3 ≤ f.length := by
      have : f.length ≠ 0 := by simpa using hne
      omega
    refine (mo_fits (fun i hi => by rw [hNP]; exact hf i hi)).bind ?_
    rintro fits ⟨e1, e2, e3⟩
    obtain ⟨c, hc, hcl⟩ := crowding_isOk v.op hsrt (fun p hp => hM p (e3 p hp)) h2 (by omega)
    rw [hc]
    refine (Outcome.sat_ok.mpr rfl : (Outcome.ok c).Sat (fun x => c = x)).bind ?_
    rintro _ rfl
    have hcf : c.length = f.length := by omega
    refine (Outcome.range_sat (fun t (r : List (Fl K)) => r.length = NP ∧ (∀ a, a ∉ f → r[a]? = cd[a]?) ∧
      ∀ (k a : Nat), k < t → f[k]? = some a → r[a]? = c[k]?) _ _ ⟨hcd, fun _ _ => rfl, fun _ _ h => absurd h (by omega)⟩ ?_).mono ?_
    · rintro t r ht ⟨hr1, hr2, hr3⟩
      have htf : t < f.length := by omega
      have hft : f[t] < r.length := by rw [hr1]; exact hf _ (List.getElem_mem htf)
      rw [Outcome.get_of_lt htf, Outcome.get_of_lt ht]
      show (Outcome.set r f[t] c[t]).Sat _
      simp only [Outcome.set, if_pos hft, Outcome.sat_ok]
      refine ⟨by simpa using hr1, ?_, ?_⟩
      · intro a ha
        rw [List.getElem?_set_ne (fun h : f[t] = a => ha (h ▸ List.getElem_mem htf))]
        exact hr2 a ha
      · intro k a hk hka
        by_cases hkt : k = t
        · subst hkt
          rw [List.getElem?_eq_getElem htf] at hka
          cases hka
          rw [List.getElem?_set_self hft, List.getElem?_eq_getElem ht]
        · have hkf : k < f.length := by omega
          rw [List.getElem?_eq_getElem hkf] at hka
          cases hka
          rw [List.getElem?_set_ne (fun h => hkt ((List.Nodup.getElem_inj_iff hnd).mp h).symm)]
          exact hr3 k _ (by omega) (List.getElem?_eq_getElem hkf)
    · rintro r ⟨hr1, hr2, hr3⟩
      refine ⟨hr1, hr2, fun k a hk => ?_⟩
      have hkf : k < f.length := (List.getElem?_eq_some_iff.mp hk).1
      have hkc : k < c.length := by omega
      exact ⟨c[k], by rw [hr3 k a hkc hk, List.getElem?_eq_getElem hkc], Or.inr ⟨h3, fits, c, e1, hc, List.getElem?_eq_getElem hkc⟩⟩

theorem nsgaCrowd_spec (v : MoEnv K σ) (hsrt : ValidSort v.srt) {fs : List (List (Fl K))} {M NP : Nat} (hM : ∀ p ∈ fs, p.length = M)
    (h2 : 2 ≤ M) (hNP : fs.length = NP) (hN2 : 2 ≤ NP) :
    (nsgaCrowd v fs NP).Sat (fun r => r.1.length = NP ∧ r.2.length = NP ∧ ∃ t, fnds fs = .ok t ∧ r.1 = t.rank ∧
      ∀ f ∈ t.fronts, ∀ (k a : Nat), f[k]? = some a → ∃ w, r.2[a]? = some w ∧ FrontCd v.op v.srt fs f k w) := by
  unfold nsgaCrowd
  obtain ⟨t, ht, hL, h1, -⟩ := C02_fnds_layers fs (by omega) (fun p hp q hq => (hM p hp).trans (hM q hq).symm)
  rw [ht]
  refine (Outcome.sat_ok.mpr rfl : (Outcome.ok t).Sat (fun x => t = x)).bind ?_
  rintro _ rfl
  have hlt : ∀ f ∈ t.fronts, ∀ i ∈ f, i < NP := by
    intro f hf i hi
    have := hL.partition.mem_iff.mp (List.mem_flatten.mpr ⟨f, hf, hi⟩)
    rw [hNP] at this
    exact List.mem_range.mp this
  have hnd : t.fronts.flatten.Nodup := hL.partition.nodup_iff.mpr List.nodup_range
  have hnd' := List.nodup_flatten.mp hnd
  refine (Outcome.foldlM_sat (fun pre (r : List (Fl K)) => r.length = NP ∧ ∀ f ∈ pre, ∀ (k a : Nat), f[k]? = some a →
    ∃ w, r[a]? = some w ∧ FrontCd v.op v.srt fs f k w) t.fronts [] _ ⟨by simp, by simp⟩ ?_).bind ?_
  · rintro p f q r hl ⟨hr1, hr2⟩
    have hfm : f ∈ t.fronts := by rw [hl]; simp
    refine (nsgaFront_spec v hsrt hM h2 hNP hr1 (hlt f hfm) (hnd'.1 f hfm) (hL.nonempty f hfm)).mono ?_
    rintro r' ⟨hr1', hr2', hr3'⟩
    refine ⟨hr1', fun f' hf' k a hk => ?_⟩
    rcases List.mem_append.mp hf' with hf' | hf'
    · obtain ⟨w, hw, hw'⟩ := hr2 f' hf' k a hk
      have hdis : List.Disjoint f' f := by
        have h := hnd'.2
        rw [hl] at h
        exact (List.pairwise_append.mp h).2.2 f' (by simpa using hf') f (by simp)
      rw [hr2' a (fun h => hdis (List.mem_of_getElem? hk) h)]
      exact ⟨w, hw, hw'⟩
    · rw [List.mem_singleton.mp hf'] at hk ⊢
      exact hr3' k a hk
  · rintro cd ⟨hc1, hc2⟩
    rw [Outcome.sat_ok]
    refine ⟨h1.trans hNP, hc1, t, ?_, rfl, by simpa using hc2⟩
    rfl

end

section
variable [Field K] [LinearOrder K] [IsStrictOrderedRing K]

/-- the winner of a tournament is one of the two -/
theorem wp_moTournament {g : Gen K σ} {rep : K → Prop} (hg : g.Lawful rep) {i j : Nat} {rank : List Nat} {cd : List (Fl K)}
    (h1 : i < rank.length) (h2 : j < rank.length) (h3 : i < cd.length) (h4 : j < cd.length) {Q : Nat → σ → Prop} {E : Exn → σ → Prop}
    {s : σ} (hq : ∀ k s', k = i ∨ k = j → Q k s') : wp (moTournament g i j rank cd) Q E s := by
  unfold moTournament
  rw [wp_bind, wp_lift_get h1, wp_bind, wp_lift_get h2, wp_ite]
  refine ⟨fun _ => hq _ _ (Or.inl rfl), fun _ => ?_⟩
  rw [wp_ite]
  refine ⟨fun _ => hq _ _ (Or.inr rfl), fun _ => ?_⟩
  rw [wp_bind, wp_lift_get h3, wp_bind, wp_lift_get h4, wp_ite]
  refine ⟨fun _ => hq _ _ (Or.inl rfl), fun _ => ?_⟩
  rw [wp_ite]
  refine ⟨fun _ => hq _ _ (Or.inr rfl), fun _ => ?_⟩
  rw [wp_bind]
  refine Gen.wp_draw01 hg ?_
  intro r s' _ _
  rw [wp_ite]
  exact ⟨fun _ => hq _ _ (Or.inl rfl), fun _ => hq _ _ (Or.inr rfl)⟩

/-! ## Children -/

/-- What keeps children inside the bounds: the bounds are finite, and simulated binary crossover and polynomial mutation
never compute NaN from numbers inside the bounds. -/
structure BredNum (pw : Fl K → Fl K → Fl K) (op : Fl.Ops K) (lb ub : List (Fl K)) (etaC etaM : Fl K) : Prop where
  finL : ∀ l ∈ lb, l.isFinite = true
  finU : ∀ u ∈ ub, u.isFinite = true
  sbx : ∀ l u a b r : K, l ≤ a → a ≤ u → l ≤ b → b ≤ u → 0 ≤ r → r ≤ 1 → Fl.gt (Fl.abs (op.sub (.fin a) (.fin b))) tiny = true →
    let y := if Fl.lt (Fl.fin a) (.fin b) then (Fl.fin a, Fl.fin b) else (.fin b, .fin a)
    (sbxValues pw op (.fin l) (.fin u) y.1 y.2 etaC (.fin r)).1 ≠ .nan ∧
    (sbxValues pw op (.fin l) (.fin u) y.1 y.2 etaC (.fin r)).2 ≠ .nan
  poly : ∀ l u y r : K, l < u → l ≤ y → y ≤ u → 0 ≤ r → r ≤ 1 → polyValue pw op (.fin y) (.fin l) (.fin u) etaM (.fin r) ≠ .nan

/-- of the right size and, if `Num`, inside the bounds -/
def Bred (Num : Prop) (P : AProb K) (x : List (Fl K)) : Prop := x.length = P.lb.length ∧ (Num → InBox P.lb P.ub P.nix x)

omit [IsStrictOrderedRing K] in
theorem bred_iff {Num : Prop} {P : AProb K} {x : List (Fl K)} :
    Bred Num P x ↔ AllAt (fun i w => Num → ∀ l u : Fl K, P.lb[i]? = some l → P.ub[i]? = some u →
      InRange l u (P.lb.length - P.nix ≤ i) w) P.lb.length x := by
  unfold Bred AllAt InBox
  refine and_congr_right fun h => ⟨fun h' i w hw n l u hl hu => (h' n).2 i l u w hl hu hw, fun h' n => ⟨h, fun i l u w hl hu hw => h' i w hw n l u hl hu⟩⟩

/-- an integer component cannot be drawn: `uniform_integral_from_range` throws -/
def Undrawable (op : Fl.Ops K) (P : AProb K) : Prop :=
  ∃ i, P.lb.length - P.nix ≤ i ∧ i < P.lb.length ∧ ¬ Drawable op P.lb P.ub P.nix i

variable [FloorRing K]

theorem wp_bredPoly {v : MoEnv K σ} {rep : K → Prop} (hg : v.g.Lawful rep) {P : AProb K} (hP : SaneBounds P.lb P.ub P.nix)
    (hr : Reps rep P.lb P.ub) {m etaC etaM : Fl K} {Num : Prop} (hN : Num → BredNum v.pw v.op P.lb P.ub etaC etaM) {x : List (Fl K)}
    (hx : Bred Num P x) {E : Exn → σ → Prop} (he : ∀ s', Undrawable v.op P → E .invalidArgument s') (s : σ) :
    wp (polyImpl v.g v.pw v.op x P.lb P.ub P.nix m etaM) (fun c _ => Bred Num P c) E s := by
  simp only [bred_iff] at hx ⊢
  refine (wp_polyImpl hg _ hx hP hr ?_ ?_ s).mono (fun _ _ h => h) (fun e s' h => by
    obtain ⟨rfl, h⟩ := h
    exact he s' h)
  · intro i y l u r hi hy hl hu hr0 hr1 hne n l1 u1 hl1 hu1
    rw [hl] at hl1; rw [hu] at hu1; cases hl1; cases hu1
    obtain ⟨-, n2, hle⟩ := hP.ordered i l u hl hu
    obtain ⟨l', rfl⟩ := fin_of_finite ((hN n).finL l (List.mem_of_getElem? hl))
    obtain ⟨u', rfl⟩ := fin_of_finite ((hN n).finU u (List.mem_of_getElem? hu))
    obtain ⟨y', rfl, hy1, hy2⟩ := between_cases (hy n _ _ hl hu).1 (hy n _ _ hl hu).2.1
    have hlt : l' < u' := by
      have : l' ≠ u' := by rintro rfl; simp [Fl.eq] at hne
      exact lt_of_le_of_ne (by simpa using hle) this
    have c := clamp_spec hle n2 ((hN n).poly l' u' y' r hlt hy1 hy2 hr0 hr1)
    exact ⟨c.1, c.2, fun h => absurd h (by omega)⟩
  · intro i l u w hi hl hu hw _ l' u' hl' hu'
    rw [hl] at hl'; rw [hu] at hu'; cases hl'; cases hu'
    exact ⟨hw.1, hw.2.1, fun _ => hw.2.2 trivial⟩

theorem wp_nsgaBreed {v : MoEnv K σ} {rep : K → Prop} (hg : v.g.Lawful rep) {P : AProb K} (hP : SaneBounds P.lb P.ub P.nix)
    (hr : Reps rep P.lb P.ub) {A : Nsga2 K} {Num : Prop} (hN : Num → BredNum v.pw v.op P.lb P.ub A.etaC A.etaM)
    {xs : List (List (Fl K))} (hx : ∀ x ∈ xs, Bred Num P x) {rank : List Nat} {cd : List (Fl K)} (h1 : rank.length = xs.length)
    (h2 : cd.length = xs.length) {sh : List Nat} (hsh : ∀ a ∈ sh, a < xs.length) {i : Nat} (hi : i + 3 < sh.length)
    {E : Exn → σ → Prop} (he : ∀ s', Undrawable v.op P → E .invalidArgument s') (s : σ) :
    wp (nsgaBreed v P A xs rank cd sh i) (fun c _ => Bred Num P c.1 ∧ Bred Num P c.2) E s := by
  have hs : ∀ (k : Nat) (h : k < sh.length), sh[k] < xs.length := fun k h => hsh _ (List.getElem_mem h)
  unfold nsgaBreed
  rw [wp_bind, wp_lift_get (by omega), wp_bind, wp_lift_get (by omega), wp_bind]
  refine wp_moTournament hg (by rw [h1]; exact hs _ _) (by rw [h1]; exact hs _ _) (by rw [h2]; exact hs _ _) (by rw [h2]; exact hs _ _) ?_
  intro p s hp
  have hp' : p < xs.length := by rcases hp with rfl | rfl <;> exact hs _ _
  rw [wp_bind, wp_lift_get (by omega), wp_bind, wp_lift_get (by omega), wp_bind]
  refine wp_moTournament hg (by rw [h1]; exact hs _ _) (by rw [h1]; exact hs _ _) (by rw [h2]; exact hs _ _) (by rw [h2]; exact hs _ _) ?_
  intro q s hq
  have hq' : q < xs.length := by rcases hq with rfl | rfl <;> exact hs _ _
  rw [wp_bind, wp_lift_get hp', wp_bind, wp_lift_get hq', wp_bind]
  have b1 := hx _ (List.getElem_mem hp')
  have b2 := hx _ (List.getElem_mem hq')
  have key : wp (sbxImpl v.g v.pw v.op xs[p] xs[q] P.lb P.ub P.nix A.cr A.etaC) (fun c _ => Bred Num P c.1 ∧ Bred Num P c.2)
      (fun _ _ => False) s := by
    simp only [bred_iff] at b1 b2 ⊢
    refine wp_sbxImpl hg _ b1 b2 rfl hP.len.symm hP.nixLe ?_ s
    intro i a b l u r hi ha hb hl hu hr0 hr1 hgt hne
    dsimp only
    rw [← forall_and]
    intro n
    obtain ⟨-, n2, hle⟩ := hP.ordered i l u hl hu
    obtain ⟨l', rfl⟩ := fin_of_finite ((hN n).finL l (List.mem_of_getElem? hl))
    obtain ⟨u', rfl⟩ := fin_of_finite ((hN n).finU u (List.mem_of_getElem? hu))
    obtain ⟨a', rfl, ha1, ha2⟩ := between_cases (b1.2 i a ha n _ _ hl hu).1 (b1.2 i a ha n _ _ hl hu).2.1
    obtain ⟨b', rfl, hb1, hb2⟩ := between_cases (b2.2 i b hb n _ _ hl hu).1 (b2.2 i b hb n _ _ hl hu).2.1
    have hval := (hN n).sbx l' u' a' b' r ha1 ha2 hb1 hb2 hr0 hr1 hgt
    have c1 := clamp_spec hle n2 hval.1
    have c2 := clamp_spec hle n2 hval.2
    constructor <;> intro l u hl' hu' <;> rw [hl] at hl' <;> rw [hu] at hu' <;> cases hl' <;> cases hu'
    · exact ⟨c1.1, c1.2, fun h => absurd h (by omega)⟩
    · exact ⟨c2.1, c2.2, fun h => absurd h (by omega)⟩
  refine key.mono ?_ (fun _ _ h => h.elim)
  rintro c s ⟨hc1, hc2⟩
  rw [wp_bind]
  refine (wp_bredPoly hg hP hr hN hc1 he s).mono ?_ (fun _ _ h => h)
  intro c1 s hc1'
  rw [wp_bind]
  refine (wp_bredPoly hg hP hr hN hc2 he s).mono ?_ (fun _ _ h => h)
  intro c2 s hc2'
  exact ⟨hc1', hc2'⟩

/-! ## Evaluation -/

/-- What a batch evaluator may do: throw, or return values of the fitness function. -/
def BatchOk (P : AProb K) (b : Batch K) : Prop :=
  ∀ (h : List (ECall K)) (dvs fvs : List (Fl K)), b h dvs = .ok fvs → ∀ i : Nat, (i + 1) * P.info.nx ≤ dvs.length →
    (i + 1) * P.info.nf ≤ fvs.length → ∃ h', P.fit h' (chunk dvs P.info.nx i) = .ok (chunk fvs P.info.nf i)

/-- Where an exception may come from: the fitness function, lack of memory, the batch evaluator (or a result of the wrong
size), an integer component that cannot be drawn. -/
def MoFault (P : AProb K) (op : Fl.Ops K) (bfe : Option (Batch K)) (s0 : St K σ) (evs : List (ECall K)) (e : Exn) : Prop :=
  UserFault P evs e ∨ e = .badAlloc ∧ s0.pop.faults ≠ [] ∨ e = .invalidArgument ∧ Undrawable op P ∨
  ∃ b dvs, bfe = some b ∧ (b evs dvs = .error e ∨
    e = .invalidArgument ∧ ∃ fvs, b evs dvs = .ok fvs ∧ fvs.length ≠ dvs.length / P.info.nx * P.info.nf)

/-- A run that ended with an exception. -/
def MoFailed (B : List (Fl K) → Prop) (P : AProb K) (op : Fl.Ops K) (bfe : Option (Batch K)) (s0 : St K σ) (e : Exn) (s : St K σ) : Prop :=
  EvsBy B s0 s ∧ MoFault P op bfe s0 s.evs e

omit [IsStrictOrderedRing K] [FloorRing K] in
theorem moFailed_of {B : List (Fl K) → Prop} {P : AProb K} {op : Fl.Ops K} {bfe : Option (Batch K)} {s0 s : St K σ} {e : Exn}
    (h : FailedBy B P s0 e s) : MoFailed B P op bfe s0 e s := by
  refine ⟨evsBy_of_failed h, ?_⟩
  obtain ⟨new, h1, h2, h3 | h3⟩ := h
  · exact Or.inl h3
  · exact Or.inr (Or.inl h3)

omit [Field K] [LinearOrder K] [IsStrictOrderedRing K] [FloorRing K] in
theorem chunk_flatten {n : Nat} : ∀ (xs : List (List (Fl K))) (i : Nat), (∀ x ∈ xs, x.length = n) → ∀ (h : i < xs.length),
    chunk xs.flatten n i = xs[i] := by
  intro xs
  induction xs with
  | nil => intro i _ h; exact absurd h (by simp)
  | cons x xs ih =>
    intro i hx h
    have hn : x.length = n := hx x (by simp)
    match i with
    | 0 => simp [chunk, ← hn]
    | i + 1 =>
      have := ih i (fun y hy => hx y (by simp [hy])) (by simpa using h)
      rw [List.getElem_cons_succ, ← this]
      unfold chunk
      rw [List.flatten_cons, show (i + 1) * n = x.length + i * n by rw [hn]; ring, ← List.drop_drop, List.drop_left]

omit [Field K] [LinearOrder K] [IsStrictOrderedRing K] [FloorRing K] in
theorem length_flatten_const {n : Nat} {xs : List (List (Fl K))} (h : ∀ x ∈ xs, x.length = n) : xs.flatten.length = xs.length * n := by
  induction xs with
  | nil => simp
  | cons x xs ih =>
    rw [List.flatten_cons, List.length_append, ih (fun y hy => h y (by simp [hy])), h x (by simp), List.length_cons]
    ring

omit [Field K] [LinearOrder K] [IsStrictOrderedRing K] [FloorRing K] in
theorem chunk_length {l : List (Fl K)} {n i : Nat} (h : (i + 1) * n ≤ l.length) : (chunk l n i).length = n := by
  have : i * n + n ≤ l.length := by rw [← Nat.succ_mul]; exact h
  simp only [chunk, List.length_take, List.length_drop]
  omega

omit [FloorRing K] in
/-- The points are evaluated in order, or an exception comes from the batch evaluator. -/
theorem wp_evalBatch' {B : List (Fl K) → Prop} {P : AProb K} {b : Batch K}
    (hok : BatchOk P b) (hnx : 0 < P.info.nx) (hnobj : 0 < P.info.nobj) (hnc : P.info.nc = 0) {s0 s : St K σ}
    {new : List (ECall K)} (ht : TrackedBy B P s0 new s) {xs : List (List (Fl K))} (hx : ∀ x ∈ xs, x.length = P.info.nx)
    (hB : ∀ x ∈ xs, B x) {Q : List (List (Fl K)) → St K σ → Prop} {E : Exn → St K σ → Prop}
    (hq : ∀ fs s', fs.length = xs.length → (∀ f ∈ fs, f.length = P.info.nf) → s'.pop = s.pop → s'.e = s.e →
      TrackedBy B P s0 (new ++ asCalls (xs.zip fs)) s' → Q fs s')
    (he : ∀ e, (b s.evs xs.flatten = .error e ∨ e = .invalidArgument ∧ ∃ fvs, b s.evs xs.flatten = .ok fvs ∧
      fvs.length ≠ xs.flatten.length / P.info.nx * P.info.nf) → E e s) : wp (evalBatch P b xs) Q E s := by
  have hnf : P.info.nf = P.info.nobj := by unfold Info.nf; unfold Info.nc at hnc; omega
  have hfl := length_flatten_const hx
  have hin : checkInput P.info.nx xs.flatten = .ok () := checkInput_ok.mpr ⟨xs.length, by rw [hfl, Nat.mul_comm]⟩
  have hdiv : xs.flatten.length / P.info.nx = xs.length := by rw [hfl, Nat.mul_div_cancel _ hnx]
  unfold wp evalBatch
  rw [hin]
  dsimp only
  cases hbr : b s.evs xs.flatten with
  | error e =>
    exact he e (Or.inl hbr)
  | ok fvs =>
    dsimp only
    by_cases hl : fvs.length = xs.length * P.info.nf
    · have hout : checkOutput P.info.nx P.info.nf xs.flatten fvs = .ok () := by
        unfold checkOutput
        rw [if_neg (by rw [hl]; simp), if_neg (by rw [hdiv, hl, Nat.mul_div_cancel _ (by omega)]; simp)]
      rw [hout]
      dsimp only
      have hle : ∀ i, i < xs.length → (i + 1) * P.info.nf ≤ fvs.length := fun i hi => by
        rw [hl]; exact Nat.mul_le_mul_right _ hi
      refine hq _ _ (by simp) ?_ rfl rfl ?_
      · intro f hf
        obtain ⟨i, hi, rfl⟩ := List.mem_map.mp hf
        rw [← hnf]
        exact chunk_length (hle i (List.mem_range.mp hi))
      · refine ⟨ht.inv, ht.id, ht.tol, ?_, ?_, ?_, ht.faults⟩
        · dsimp only
          rw [ht.evs, List.append_assoc]
          rfl
        · intro p hp
          rcases List.mem_append.mp hp with hp | hp
          · exact ht.box p hp
          · obtain ⟨q, hq', rfl⟩ := List.mem_map.mp hp
            exact hB _ (List.of_mem_zip hq').1
        · intro p hp
          rcases List.mem_append.mp hp with hp | hp
          · exact ht.user p hp
          · obtain ⟨q, hq', rfl⟩ := List.mem_map.mp hp
            obtain ⟨i, hi, hi'⟩ := List.getElem_of_mem hq'
            rw [List.getElem_zip] at hi'
            rw [List.length_zip, List.length_map, List.length_range, min_self] at hi
            obtain ⟨h', hfit⟩ := hok s.evs xs.flatten fvs hbr i (by rw [hfl]; exact Nat.mul_le_mul_right _ hi) (hle i hi)
            refine ⟨h', ?_⟩
            rw [← hi']
            rw [chunk_flatten xs i hx hi, hnf] at hfit
            simp [hfit]
    · have hout : checkOutput P.info.nx P.info.nf xs.flatten fvs = .throws .invalidArgument := by
        unfold checkOutput
        split
        · rfl
        · rename_i h1
          rw [if_pos]
          intro h2
          apply hl
          rw [hdiv] at h2
          rw [← h2, Nat.div_mul_cancel (Nat.dvd_of_mod_eq_zero (not_not.mp h1))]
      rw [hout]
      exact he _ (Or.inr ⟨rfl, fvs, hbr, by rw [hdiv]; exact hl⟩)

omit [FloorRing K] in
theorem wp_evalBatch {B : List (Fl K) → Prop} {P : AProb K} {op : Fl.Ops K} {b : Batch K} {bfe : Option (Batch K)} (hb : bfe = some b)
    (hok : BatchOk P b) (hnx : 0 < P.info.nx) (hnobj : 0 < P.info.nobj) (hnc : P.info.nc = 0) {s0 s : St K σ}
    {new : List (ECall K)} (ht : TrackedBy B P s0 new s) {xs : List (List (Fl K))} (hx : ∀ x ∈ xs, x.length = P.info.nx)
    (hB : ∀ x ∈ xs, B x) {Q : List (List (Fl K)) → St K σ → Prop} {E : Exn → St K σ → Prop}
    (hq : ∀ fs s', fs.length = xs.length → (∀ f ∈ fs, f.length = P.info.nf) → s'.pop = s.pop → s'.e = s.e →
      TrackedBy B P s0 (new ++ asCalls (xs.zip fs)) s' → Q fs s')
    (he : ∀ e s', MoFailed B P op bfe s0 e s' → E e s') : wp (evalBatch P b xs) Q E s :=
  wp_evalBatch' hok hnx hnobj hnc ht hx hB hq fun e h => he e s ⟨evsBy_of_tracked ht, Or.inr (Or.inr (Or.inr ⟨b, xs.flatten, hb, h⟩))⟩

/-- The offspring: `NP` of them, in the bounds (if `Num`), evaluated in order. -/
theorem wp_nsgaKids {v : MoEnv K σ} {rep : K → Prop} (hg : v.g.Lawful rep) {P : AProb K} (hP : SaneBounds P.lb P.ub P.nix)
    (hr : Reps rep P.lb P.ub) (hdim : P.info.nx = P.lb.length) (hnobj : 0 < P.info.nobj) (hnc : P.info.nc = 0) {A : Nsga2 K}
    (hbfe : ∀ b, A.bfe = some b → BatchOk P b) {Num : Prop} (hN : Num → BredNum v.pw v.op P.lb P.ub A.etaC A.etaM)
    {xs : List (List (Fl K))} (hx : ∀ x ∈ xs, Bred Num P x) {NP : Nat} (hNP : xs.length = NP) (h4 : NP % 4 = 0) {rank : List Nat}
    {cd : List (Fl K)} (h1 : rank.length = NP) (h2 : cd.length = NP) {sh1 sh2 : List Nat} (hl1 : sh1.length = NP) (hl2 : sh2.length = NP)
    (hs1 : ∀ a ∈ sh1, a < NP) (hs2 : ∀ a ∈ sh2, a < NP) {s0 s : St K σ} {new : List (ECall K)}
    (ht : TrackedBy (Bred Num P) P s0 new s) {Q : List (List (Fl K) × List (Fl K)) → St K σ → Prop} {E : Exn → St K σ → Prop}
    (hq : ∀ kids s', kids.length = NP → (∀ p ∈ kids, Bred Num P p.1 ∧ p.2.length = P.info.nf) → s'.pop = s.pop →
      TrackedBy (Bred Num P) P s0 (new ++ asCalls kids) s' → Q kids s')
    (he : ∀ e s', MoFailed (Bred Num P) P v.op A.bfe s0 e s' → E e s') :
    wp (nsgaKids v P A NP xs rank cd sh1 sh2) Q E s := by
  subst hNP
  have hnx : 0 < P.info.nx := by
    rw [hdim]; exact List.length_pos_iff.mpr hP.nonempty
  have hund : ∀ (s : St K σ) (n : List (ECall K)), TrackedBy (Bred Num P) P s0 n s → Undrawable v.op P → E .invalidArgument s := fun s n h hu =>
    he _ _ ⟨evsBy_of_tracked h, Or.inr (Or.inr (Or.inl ⟨rfl, hu⟩))⟩
  have hfour : ∀ k, k < xs.length / 4 → 4 * k + 3 < xs.length := fun k hk => by omega
  have hrng : ∀ (s : St K σ) (n : List (ECall K)) (p : σ), TrackedBy (Bred Num P) P s0 n s →
      TrackedBy (Bred Num P) P s0 n { s with e := p } := fun s n p h => ⟨h.inv, h.id, h.tol, h.evs, h.box, h.user, h.faults⟩
  unfold nsgaKids
  cases hA : A.bfe with
  | none =>
    dsimp only
    refine (wp_range (fun t (acc : List (List (Fl K) × List (Fl K))) s' => acc.length = 4 * t ∧
      (∀ p ∈ acc, Bred Num P p.1 ∧ p.2.length = P.info.nf) ∧ s'.pop = s.pop ∧ TrackedBy (Bred Num P) P s0 (new ++ asCalls acc) s') _ _ s
      ⟨rfl, by simp, rfl, by simpa [asCalls] using ht⟩ ?_).mono ?_ (fun (e : Exn) s' (h : E e s') => h)
    · rintro k acc s' hk ⟨a1, a2, a3, a4⟩
      have hk' := hfour k hk
      unfold nsgaEvalFour
      rw [wp_bind, wp_onRng]
      refine (wp_nsgaBreed (E := fun e p => E e { s' with e := p }) hg hP hr hN hx h1 h2 hs1 (by omega)
        (fun p hu => hund _ _ (hrng _ _ p a4) hu) s'.e).mono ?_ (fun _ _ h => h)
      rintro c p ⟨c1, c2⟩
      rw [wp_bind]
      refine wp_eval_by (by rw [hdim]; exact c1.1) (hrng _ _ p a4) c1 ?_ (fun e s h => he e s (hA ▸ moFailed_of h))
      intro f1 s1 l1 p1 _ t1
      rw [wp_bind]
      refine wp_eval_by (by rw [hdim]; exact c2.1) t1 c2 ?_ (fun e s h => he e s (hA ▸ moFailed_of h))
      intro f2 s2 l2 p2 _ t2
      rw [wp_bind, wp_onRng]
      refine (wp_nsgaBreed (E := fun e p => E e { s2 with e := p }) hg hP hr hN hx h1 h2 hs2 (by omega)
        (fun p hu => hund _ _ (hrng _ _ p t2) hu) s2.e).mono ?_ (fun _ _ h => h)
      rintro d p ⟨d1, d2⟩
      rw [wp_bind]
      refine wp_eval_by (by rw [hdim]; exact d1.1) (hrng _ _ p t2) d1 ?_ (fun e s h => he e s (hA ▸ moFailed_of h))
      intro f3 s3 l3 p3 _ t3
      rw [wp_bind]
      refine wp_eval_by (by rw [hdim]; exact d2.1) t3 d2 ?_ (fun e s h => he e s (hA ▸ moFailed_of h))
      intro f4 s4 l4 p4 _ t4
      refine ⟨by simp [a1]; omega, ?_, by rw [p4, p3]; exact (p2.trans p1).trans a3, ?_⟩
      · intro q hq
        rcases List.mem_append.mp hq with hq | hq
        · exact a2 q hq
        · simp only [List.mem_cons, List.not_mem_nil, or_false] at hq
          rcases hq with rfl | rfl | rfl | rfl
          · exact ⟨c1, l1⟩
          · exact ⟨c2, l2⟩
          · exact ⟨d1, l3⟩
          · exact ⟨d2, l4⟩
      · have e : new ++ asCalls (acc ++ [(c.1, f1), (c.2, f2), (d.1, f3), (d.2, f4)]) =
            new ++ asCalls acc ++ [(c.1, .ok f1)] ++ [(c.2, .ok f2)] ++ [(d.1, .ok f3)] ++ [(d.2, .ok f4)] := by
          simp [asCalls]
        rw [e]; exact t4
    · rintro acc s' ⟨a1, a2, a3, a4⟩
      exact hq acc s' (by rw [a1]; omega) a2 a3 a4
  | some b =>
    dsimp only
    rw [wp_bind, wp_onRng]
    refine (wp_range (E := fun e p => E e { s with e := p }) (fun t (acc : List (List (Fl K))) _ => acc.length = 4 * t ∧ ∀ x ∈ acc, Bred Num P x) _ _ s.e
      ⟨rfl, by simp⟩ ?_).mono ?_ (fun _ _ h => h)
    · rintro k acc p hk ⟨a1, a2⟩
      have hk' := hfour k hk
      unfold nsgaFour
      rw [wp_bind]
      refine (wp_nsgaBreed (E := fun e p => E e { s with e := p }) hg hP hr hN hx h1 h2 hs1 (by omega)
        (fun p hu => hund _ _ (hrng _ _ p ht) hu) p).mono ?_ (fun _ _ h => h)
      rintro c p ⟨c1, c2⟩
      rw [wp_bind]
      refine (wp_nsgaBreed (E := fun e p => E e { s with e := p }) hg hP hr hN hx h1 h2 hs2 (by omega)
        (fun p hu => hund _ _ (hrng _ _ p ht) hu) p).mono ?_ (fun _ _ h => h)
      rintro d p ⟨d1, d2⟩
      refine ⟨by simp [a1]; omega, ?_⟩
      intro x hx
      rcases List.mem_append.mp hx with hx | hx
      · exact a2 x hx
      · simp only [List.mem_cons, List.not_mem_nil, or_false] at hx
        rcases hx with rfl | rfl | rfl | rfl
        · exact c1
        · exact c2
        · exact d1
        · exact d2
    · rintro ys p ⟨a1, a2⟩
      rw [wp_bind]
      refine wp_evalBatch (bfe := A.bfe) (op := v.op) hA (hbfe b hA) hnx hnobj hnc (hrng _ _ p ht) (fun x hx => by rw [hdim]; exact (a2 x hx).1) a2 ?_
        he
      intro fs s' f1 f2 f3 _ f4
      refine hq (ys.zip fs) s' (by rw [List.length_zip, f1, min_self, a1]; omega) ?_ f3 f4
      intro q hq
      obtain ⟨q1, q2⟩ := List.of_mem_zip hq
      exact ⟨a2 _ q1, f2 _ q2⟩

end

end Verif.Props
