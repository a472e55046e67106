import Verif.Proof.Sea

/-!
# C66: sea
-/

set_option autoImplicit false

namespace Verif.Props

open Verif Run Prob Pop Alg

variable {K σ : Type} [Field K] [LinearOrder K]

/-- A computed difference is not negative only if the numbers are ordered so. This holds in IEEE arithmetic with gradual
underflow. -/
def SubSign (op : Fl.Ops K) : Prop := ∀ a b : Fl K, Fl.ge (op.sub a b) (.fin 0) = true → Fl.le b a = true

/-- invariant of the main loop of `sea`, after `k` generations -/
structure SeaInv (P : AProb K) (s0 : St K σ) (k : Nat) (b : Nat × Nat) (new : List (ECall K)) (s : St K σ) : Prop where
  tr : Tracked P s0 new s
  imp : P.info.stochastic = false → EachImproved new s0.pop s.pop
  cnt : new.length = k * (if P.info.stochastic then s0.pop.id.length + 1 else 1)
  xs : ∀ x ∈ s.pop.x, InBox P.lb P.ub 0 x
  bi : b.1 < s0.pop.id.length
  wi : b.2 < s0.pop.id.length

theorem each_refl (new : List (ECall K)) (p : Pop.State K) : EachImproved new p p := by
  intro i x0 f0 x f h1 h2 h3 h4
  rw [h1] at h3; rw [h2] at h4; cases h3; cases h4; exact Or.inl rfl

section
variable [IsStrictOrderedRing K]

omit [IsStrictOrderedRing K] in
theorem by_set {B : List (Fl K) → Prop} {xs : List (List (Fl K))} {i : Nat} {x : List (Fl K)} (h : ∀ y ∈ xs, B y) (hx : B x) :
    ∀ y ∈ xs.set i x, B y := by
  intro y hy
  rcases List.mem_or_eq_of_mem_set hy with h' | rfl
  · exact h y h'
  · exact hx

/-- the calls of the fitness function that evaluated these individuals -/
def asCalls (l : List (List (Fl K) × List (Fl K))) : List (ECall K) := l.map (fun p => (p.1, Except.ok p.2))

omit [Field K] [LinearOrder K] [IsStrictOrderedRing K] in
theorem zip_take_set {xs fs : List (List (Fl K))} {j : Nat} {f : List (Fl K)} (h1 : j < xs.length) (h2 : j < fs.length) :
    (xs.zip (fs.set j f)).take (j + 1) = (xs.zip fs).take j ++ [(xs[j], f)] := by
  apply List.ext_getElem?
  intro k
  grind

theorem wp_reEvaluate {B : List (Fl K) → Prop} {v : Env K σ} {P : AProb K} (hB : ∀ x, B x → x.length = P.info.nx) (hnx0 : 0 < P.info.nx)
    (hnobj : 0 < P.info.nobj) {s0 s : St K σ} {new : List (ECall K)} (ht : TrackedBy B P s0 new s) (hx : ∀ x ∈ s.pop.x, B x) {j : Nat}
    (hj : j < s.pop.id.length) (hxj : j < s.pop.x.length) :
    wp (reEvaluate v P () j) (fun _ s' => ∃ f, TrackedBy B P s0 (new ++ [(s.pop.x[j], .ok f)]) s' ∧
      s'.pop.x = s.pop.x ∧ s'.pop.f = s.pop.f.set j f) (FailedBy B P s0) s := by
  unfold reEvaluate
  have hm := hx _ (List.getElem_mem hxj)
  rw [wp_bind, wp_get', wp_bind, wp_lift_get (by omega), wp_bind]
  refine wp_eval_by (hB _ hm) ht hm ?_ (fun _ _ h => h)
  intro f s1 hf hpop _ ht1
  refine wp_setXF_tracked hnx0 hnobj ht1 (by rw [hpop]; exact hj) (hB _ hm) hf ?_ (fun _ _ h => h)
  intro s2 ht2 _ hx2 hf2 _
  have e : s2.pop.x = s.pop.x := by rw [hx2, hpop, List.set_getElem_self]
  exact ⟨f, ht2, e, by rw [hf2, hpop]⟩

theorem wp_reSeed {B : List (Fl K) → Prop} {v : Env K σ} {rep : K → Prop} (hg : v.g.Lawful rep) {P : AProb K}
    (hB : ∀ x, B x → x.length = P.info.nx) (hnx0 : 0 < P.info.nx)
    (hnobj : 0 < P.info.nobj) {s0 s : St K σ} {new : List (ECall K)} (ht : TrackedBy B P s0 new s)
    (hx : ∀ x ∈ s.pop.x, B x) {Q : Unit → St K σ → Prop}
    (h1 : P.info.stochastic = false → Q () s)
    (h2 : P.info.stochastic = true → ∀ s', TrackedBy B P s0 (new ++ asCalls (s'.pop.x.zip s'.pop.f)) s' →
      s'.pop.x = s.pop.x → Q () s') :
    wp (reSeed v P) Q (FailedBy B P s0) s := by
  unfold reSeed
  have hxl := ht.inv.wf.xs
  split
  · rename_i hst
    rw [wp_bind, wp_onRng]
    refine Gen.wp_drawNat hg (by norm_num) (fun n e _ _ => ?_)
    rw [wp_bind, wp_get']
    refine (wp_range (fun j _ (s' : St K σ) => TrackedBy B P s0 (new ++ asCalls ((s'.pop.x.zip s'.pop.f).take j)) s' ∧
      s'.pop.x = s.pop.x) s.pop.id.length () { s with e := e } ⟨by simpa [asCalls] using tracked_rng ht e, rfl⟩ ?_).mono ?_ (fun _ _ h => h)
    · rintro j _ s1 hj ⟨h3, h4⟩
      have hj' : j < s1.pop.id.length := by rw [h3.id, ← ht.id]; exact hj
      have hxl1 := h3.inv.wf.xs
      have hfl1 := h3.inv.wf.fs
      refine (wp_reEvaluate hB hnx0 hnobj h3 (by rw [h4]; exact hx) hj' (by omega)).mono ?_ (fun _ _ h => h)
      rintro _ s2 ⟨f, h6, h7, h8⟩
      refine ⟨?_, h7.trans h4⟩
      rw [h7, h8, zip_take_set (by omega) (by omega)]
      simpa [asCalls] using h6
    · rintro _ s1 ⟨h3, h4⟩
      refine h2 hst s1 ?_ h4
      have hl : (s1.pop.x.zip s1.pop.f).length = s.pop.id.length := by
        rw [List.length_zip, h3.inv.wf.xs, h3.inv.wf.fs, h3.id, ← ht.id, Nat.min_self]
      rw [← hl, List.take_length] at h3
      exact h3
  · rename_i hst
    exact h1 (by simpa using hst)

theorem wp_seaInsert {v : Env K σ} (hsub : SubSign v.op) {P : AProb K} (hP : FiniteBox P) (hnobj : P.info.nobj = 1)
    (hnc : P.info.nc = 0) {s0 s : St K σ} (hsz : s0.pop.id.length ≤ 2 ^ 63) {new : List (ECall K)} {b : Nat × Nat}
    {x f : List (Fl K)} (ht : Tracked P s0 new s) (himp : P.info.stochastic = false → EachImproved new s0.pop s.pop)
    (hxs : ∀ x ∈ s.pop.x, InBox P.lb P.ub 0 x) (hb1 : b.1 < s0.pop.id.length) (hb2 : b.2 < s0.pop.id.length)
    (hx : InBox P.lb P.ub 0 x) (hf : f.length = P.info.nf) (hm : (x, Except.ok f) ∈ new) :
    wp (seaInsert v P b x f) (fun b' s' => Tracked P s0 new s' ∧ (P.info.stochastic = false → EachImproved new s0.pop s'.pop) ∧
      (∀ x ∈ s'.pop.x, InBox P.lb P.ub 0 x) ∧ b'.1 < s0.pop.id.length ∧ b'.2 < s0.pop.id.length) (RunFailed P s0) s := by
  have hnf : P.info.nf = 1 := by simp only [Info.nf, Info.nc] at *; omega
  have hnx0 : 0 < P.info.nx := by rw [hP.nx]; exact List.length_pos_iff.mpr hP.bounds.nonempty
  have hid : s.pop.id.length = s0.pop.id.length := by rw [ht.id]
  have hfl := ht.inv.wf.fs
  unfold seaInsert
  have hw : (s.pop.f[b.2]'(by omega)).length = 1 := by rw [← hnf]; exact ht.inv.wf.dimF _ (List.getElem_mem _)
  rw [wp_bind, wp_get', wp_bind, wp_lift_get (by omega), wp_bind, wp_lift_get (by omega), wp_bind, wp_lift_get (by omega)]
  split
  · rename_i hge
    rw [wp_bind]
    refine wp_setXF_tracked hnx0 (by omega) ht (by omega) (by rw [hP.nx]; exact hx.1) hf ?_ (fun _ _ h => h)
    intro s2 ht2 _ hx2 hf2 _
    have hfl2 := ht2.inv.wf.fs
    have hid2 : s2.pop.id.length = s0.pop.id.length := by rw [ht2.id]
    have hbst : (s2.pop.f[b.1]'(by omega)).length = 1 := by rw [← hnf]; exact ht2.inv.wf.dimF _ (List.getElem_mem _)
    obtain ⟨_, ⟨wi, hw1, hw2⟩⟩ := idx_lt (srt := v.srt) (sq := v.sq) hnobj hnc
      (fs := s2.pop.f) (fun h => by rw [h] at hfl2; simp at hfl2; omega) (by omega) s2.pop.tol
    rw [wp_bind, wp_get', wp_bind, wp_lift_get (by omega), wp_bind, wp_lift_get (by omega), wp_bind, hw1, wp_lift_ok, wp_pure]
    refine ⟨ht2, fun hst => ?_, ?_, ?_, by omega⟩
    · exact eachImproved_set ht.inv.wf (himp hst) (List.getElem?_eq_getElem (by omega)) hm
        ⟨_, _, List.getElem?_eq_getElem (by omega), List.getElem?_eq_getElem (by omega), hsub _ _ hge⟩ hx2 hf2
    · rw [hx2]; exact box_set hxs hx
    · split
      · exact hb2
      · exact hb1
  · rw [wp_pure]
    exact ⟨ht, himp, hxs, hb1, hb2⟩

/-- What `sea::evolve` has done. -/
structure SeaDone (P : AProb K) (gens : Nat) (s s' : St K σ) : Prop where
  inv : Inv P.info s'.pop
  id : s'.pop.id = s.pop.id
  work : ∃ new, s'.evs = s.evs ++ new ∧ (∀ p ∈ new, InBox P.lb P.ub 0 p.1) ∧ (∀ p ∈ new, ∃ h, p.2 = P.fit h p.1) ∧
    (P.info.stochastic = false → EachImproved new s.pop s'.pop) ∧
    new.length = gens * (if P.info.stochastic then s.pop.id.length + 1 else 1)
  box : ∀ x ∈ s'.pop.x, InBox P.lb P.ub 0 x

theorem wpn_sea {N : Prop} (v : Env K σ) (rep : K → Prop) (hg : v.g.Lawful rep) (hop : NoOverflow v.op) (hsub : SubSign v.op)
    (P : AProb K) (hP : FiniteBox P) (hnobj : P.info.nobj = 1) (hnc : P.info.nc = 0) (gens m : Nat)
    (hm : ¬ N → ∀ e, ∃ k < m * P.lb.length, Below v.g (v.op.div v.op.one (.fin (P.lb.length : K))) e k)
    (hgens : gens + 1 < 2 ^ 32) (s : St K σ) (hi : Inv P.info s.pop) (h1 : 0 < s.pop.id.length)
    (hsz : s.pop.id.length ≤ 2 ^ 63) (hbox : ∀ x ∈ s.pop.x, InBox P.lb P.ub 0 x) (fuel : Nat) (hfuel : gens < fuel) :
    wpn N (seaEvolve v P gens m fuel) (fun _ s' => SeaDone P gens s s') (RunFailed P s) s := by
  have hnf : P.info.nf = 1 := by simp only [Info.nf, Info.nc] at *; omega
  have hnx0 : 0 < P.info.nx := by rw [hP.nx]; exact List.length_pos_iff.mpr hP.bounds.nonempty
  have hfl := hi.wf.fs
  have hxl := hi.wf.xs
  unfold seaEvolve
  rw [if_neg (by omega), if_neg (by omega)]
  split
  · rename_i h0
    subst h0
    exact ⟨hi, rfl, ⟨[], by simp, by simp, by simp, fun _ => each_refl _ _, by simp⟩, hbox⟩
  · rw [wpn_bind, wpn_get', if_neg (by omega)]
    obtain ⟨⟨bi, hb1, hb2⟩, ⟨wi, hw1, hw2⟩⟩ := idx_lt (srt := v.srt) (sq := v.sq) hnobj hnc
      (fs := s.pop.f) (fun h => by rw [h] at hfl; simp at hfl; omega) (by omega) s.pop.tol
    rw [wpn_bind, hb1, wpn_lift_ok, wpn_bind, hw1, wpn_lift_ok, wpn_bind]
    refine (wpn_genLoop (E := RunFailed P s) hgens (fun k b s' => ∃ new, SeaInv P s k b new s') ?_ fuel 0 _ s (by omega) (by simpa using hfuel) ?_).mono ?_ (fun _ _ h => h)
    · rintro k b s1 hk ⟨new, hI⟩
      unfold seaGen
      have rest : ∀ (s2 : St K σ) (new2 : List (ECall K)), Tracked P s new2 s2 →
          (P.info.stochastic = false → EachImproved new2 s.pop s2.pop) →
          new2.length + 1 = (k + 1) * (if P.info.stochastic then s.pop.id.length + 1 else 1) →
          (∀ x ∈ s2.pop.x, InBox P.lb P.ub 0 x) →
          wpn N (do
            let s ← Run.get
            let x ← Run.lift (Outcome.get s.pop.x b.1)
            let x ← onRng (seaMutate v.g v.op P.lb P.ub m x)
            let f ← eval P x
            let b ← seaInsert v P b x f
            pure (b, false))
            (fun r s' => r.2 = false ∧ ∃ new, SeaInv P s (k + 1) r.1 new s') (RunFailed P s) s2 := by
        intro s2 new2 ht2 himp2 hc2 hx2
        have hid2 := ht2.id
        have hxl2 := ht2.inv.wf.xs
        have hbi := hI.bi
        rw [wpn_bind, wpn_get', wpn_bind, wpn_lift_get (by rw [hxl2, hid2]; exact hbi), wpn_bind, wpn_onRng]
        refine wpn_seaMutate hg hop hP ?_ m _ _ (hx2 _ (List.getElem_mem _)) (fun hn => hm hn _)
        intro y e hy
        rw [wpn_bind]
        refine wpn_of_wp (wp_eval_tracked hP.nx (tracked_rng ht2 e) hy ?_ (fun _ _ h => h))
        intro f s3 hf hpop _ ht3
        rw [wpn_bind]
        refine wpn_of_wp ((wp_seaInsert (b := b) hsub hP hnobj hnc hsz ht3 (fun hst => ?_) (by rw [hpop]; exact hx2) hI.bi hI.wi hy hf
          (by simp)).mono ?_ (fun _ _ h => h))
        · rw [hpop]
          exact eachImproved_mono (fun p hp => List.mem_append_left _ hp) (himp2 hst)
        · rintro b' s4 ⟨h3, h4, h5, h6, h7⟩
          exact ⟨rfl, _, h3, h4, by simpa using hc2, h5, h6, h7⟩
      rw [wpn_bind]
      refine wpn_of_wp (wp_reSeed hg (fun x hx => by rw [hP.nx]; exact hx.1) hnx0 (by omega) hI.tr hI.xs ?_ ?_)
      · intro hst
        refine rest s1 new hI.tr hI.imp ?_ hI.xs
        have := hI.cnt
        rw [hst] at this ⊢
        simp at this ⊢
        exact this
      · intro hst s2 ht2 hx2
        refine rest s2 _ ht2 (fun h => by rw [hst] at h; cases h) ?_ (by rw [hx2]; exact hI.xs)
        have hl : (s2.pop.x.zip s2.pop.f).length = s.pop.id.length := by
          rw [List.length_zip, ht2.inv.wf.xs, ht2.inv.wf.fs, ht2.id, Nat.min_self]
        have := hI.cnt
        rw [hst] at this ⊢
        simp only [if_true] at this ⊢
        rw [List.length_append, asCalls, List.length_map, hl, this]; ring
    · exact ⟨[], tracked_refl hi, fun _ => each_refl _ _, by simp, hbox, by simpa [hfl] using hb2, by simpa [hfl] using hw2⟩
    · rintro b s' ⟨new, h⟩
      rw [wpn_pure]
      exact ⟨h.tr.inv, h.tr.id, ⟨new, h.tr.evs, h.tr.box, h.tr.user, h.imp, h.cnt⟩, h.xs⟩

/-- C66 (sea). For every non-empty population inside the bounds of an unconstrained single-objective problem with finite
bounds, every fitness function (NaN and exceptions included) and engine, in arithmetic without overflow: if `evolve`
ends, the IDs are unchanged, only points inside the bounds were evaluated, as many as stated, and if the problem is not
stochastic every individual is unchanged or was replaced by an evaluated point whose fitness is not larger. `m` is the
number of rounds of the inner loop; it may run out. -/
theorem C66_sea (v : Env K σ) (rep : K → Prop) (hg : v.g.Lawful rep) (hop : NoOverflow v.op) (hsub : SubSign v.op)
    (P : AProb K) (hP : FiniteBox P) (hnobj : P.info.nobj = 1) (hnc : P.info.nc = 0) (gens m : Nat)
    (hgens : gens + 1 < 2 ^ 32) (s : St K σ) (hi : Inv P.info s.pop) (h1 : 0 < s.pop.id.length)
    (hsz : s.pop.id.length ≤ 2 ^ 63) (hbox : ∀ x ∈ s.pop.x, InBox P.lb P.ub 0 x) (fuel : Nat) (hfuel : gens < fuel) :
    wpn True (seaEvolve v P gens m fuel) (fun _ s' => SeaDone P gens s s') (RunFailed P s) s :=
  wpn_sea v rep hg hop hsub P hP hnobj hnc gens m (fun h => absurd trivial h) hgens s hi h1 hsz hbox fuel hfuel

/-- C66 (sea, termination). If in any `m · nx` consecutive numbers drawn from [0, 1) there is one below `1 / nx`,
`evolve` ends. -/
theorem C66_sea_ends (v : Env K σ) (rep : K → Prop) (hg : v.g.Lawful rep) (hop : NoOverflow v.op) (hsub : SubSign v.op)
    (P : AProb K) (hP : FiniteBox P) (hnobj : P.info.nobj = 1) (hnc : P.info.nc = 0) (gens m : Nat)
    (hm : ∀ e, ∃ k < m * P.lb.length, Below v.g (v.op.div v.op.one (.fin (P.lb.length : K))) e k)
    (hgens : gens + 1 < 2 ^ 32) (s : St K σ) (hi : Inv P.info s.pop) (h1 : 0 < s.pop.id.length)
    (hsz : s.pop.id.length ≤ 2 ^ 63) (hbox : ∀ x ∈ s.pop.x, InBox P.lb P.ub 0 x) (fuel : Nat) (hfuel : gens < fuel) :
    wp (seaEvolve v P gens m fuel) (fun _ s' => SeaDone P gens s s') (RunFailed P s) s :=
  wp_of_wpn (wpn_sea v rep hg hop hsub P hP hnobj hnc gens m (fun _ => hm) hgens s hi h1 hsz hbox fuel hfuel)

end

/-- C66 (best). If every individual is unchanged or improved, then the best objective value is not worse: for every
objective value before there is one not larger after. -/
theorem C66_best {new : List (ECall K)} {p0 p : Pop.State K} {P : Info} (h0 : WellFormed P p0) (hw : WellFormed P p)
    (hid : p.id = p0.id) (h : EachImproved new p0 p) (hnf : 0 < P.nf) (hnan : ∀ f ∈ p0.f, ∀ a : Fl K, f[0]? = some a → a ≠ .nan) :
    ∀ f0 ∈ p0.f, ∃ f ∈ p.f, NotAbove f f0 := by
  intro f0 hf0
  obtain ⟨i, hi, rfl⟩ := List.getElem_of_mem hf0
  have e1 := h0.fs
  have e2 := h0.xs
  have e3 := hw.fs
  have e4 := hw.xs
  rw [hid] at e3 e4
  refine ⟨p.f[i]'(by omega), List.getElem_mem _, ?_⟩
  rcases h i _ _ _ _ (List.getElem?_eq_getElem (show i < p0.x.length by omega)) (List.getElem?_eq_getElem hi)
    (List.getElem?_eq_getElem (show i < p.x.length by omega)) (List.getElem?_eq_getElem (show i < p.f.length by omega)) with h' | ⟨_, h'⟩
  · have h2 : p.f[i]'(by omega) = p0.f[i] := congrArg Prod.snd h'
    rw [h2]
    have hl := h0.dimF _ hf0
    have h3 : (p0.f[i])[0]? = some ((p0.f[i])[0]'(by omega)) := List.getElem?_eq_getElem (by omega)
    have h4 := hnan _ hf0 _ h3
    exact ⟨_, _, h3, h3, fl_le_iff.mpr ⟨h4, h4, le_rfl⟩⟩
  · exact h'

/-- C66 (sea, errors). -/
theorem C66_sea_throws (v : Env K σ) (P : AProb K) (gens m fuel : Nat) (s : St K σ)
    (h : P.info.nc ≠ 0 ∨ P.info.nf ≠ 1 ∨ (0 < gens ∧ s.pop.id = [])) :
    seaEvolve v P gens m fuel s = (.throws .invalidArgument, s) := by
  unfold seaEvolve
  split
  · rfl
  · split
    · rfl
    · rename_i h1 h2
      obtain ⟨h4, h5⟩ : 0 < gens ∧ s.pop.id = [] := by
        rcases h with h | h | h
        · exact absurd h h1
        · exact absurd h h2
        · exact h
      rw [if_neg (by omega)]
      show Run.bind _ _ s = _
      simp only [Run.bind, Run.get, h5, List.length_nil, if_true]
      rfl

/-! ### Non-triviality -/

theorem subSign_exact [IsStrictOrderedRing K] : SubSign (Fl.exact K) := by
  intro a b h
  cases a <;> cases b <;> simp [Fl.exact, Fl.sub, Fl.add, Fl.neg, Fl.ge, Fl.le, Fl.lt, Fl.eq] at h ⊢
  rename_i a b
  rcases h with h | h
  · left; linarith
  · right; linarith

/-- an engine that draws 1/4 at every step -/
def quarterGen : Gen ℚ Unit := ⟨fun a b _ => (a + (b - a) / 4, ()), fun a _ _ => (a, ()), fun z => z⟩

theorem quarterGen_lawful : quarterGen.Lawful (fun _ => True) where
  real_mem a b e h := by
    show a ≤ a + (b - a) / 4 ∧ a + (b - a) / 4 ≤ b
    constructor <;> linarith
  int_mem a b e h := ⟨le_rfl, h⟩
  ofInt_mem a b z _ _ h1 h2 := ⟨Int.cast_le.mpr h1, Int.cast_le.mpr h2⟩
  ofInt_int z := ⟨z, rfl⟩

def seaEnv : Env ℚ Unit := ⟨algDemoEnv.srt, algDemoEnv.sq, Fl.exact ℚ, quarterGen⟩

def seaSt : St ℚ Unit := ⟨deDemoSt.pop, (), []⟩

example : wp (seaEvolve seaEnv algDemo 3 1 4) (fun _ s' => SeaDone algDemo 3 seaSt s') (RunFailed algDemo seaSt) seaSt := by
  refine C66_sea_ends seaEnv _ quarterGen_lawful noOverflow_exact subSign_exact algDemo algDemo_finiteBox rfl rfl 3 1 ?_ (by norm_num)
    seaSt deDemo_inv (by decide) (by decide) deDemo_box 4 (by norm_num)
  intro e
  exact ⟨0, by decide, by cases e; unfold Below; decide +kernel⟩

example : (seaEvolve seaEnv algDemo 3 1 4 seaSt).2.pop.f =
    [[.fin (25 / 4)], [.fin 1], [.fin 4], [.fin (25 / 4)], [.fin (25 / 4)]] := by decide +kernel

end Verif.Props
