import Verif.Model.Cmaes
import Verif.Proof.Xnes
import Verif.Proof.Nsga2

/-!
# Helper lemmas for `Verif.Props.Cmaes`
-/

set_option autoImplicit false

namespace Verif.Props

open Verif Run Prob Pop Alg

variable {K σ : Type} [Field K] [LinearOrder K]

/-! ### The population -/

theorem swo_cmLess {fs : List (List (Fl K))} {lam : Nat} (hl : fs.length = lam) (h1 : ∀ f ∈ fs, f.length = 1) :
    swoOn (cmLess fs) (List.range lam) = true := by
  refine swoOn_of_key (keyOf fs) fun a ha b hb => ?_
  have ha' := List.mem_range.mp ha
  have hb' := List.mem_range.mp hb
  unfold cmLess keyOf
  rw [List.getElem?_eq_getElem (show a < fs.length by omega), List.getElem?_eq_getElem (show b < fs.length by omega),
    List.getD_eq_getElem _ _ (show a < fs.length by omega), List.getD_eq_getElem _ _ (show b < fs.length by omega)]
  have la := h1 _ (List.getElem_mem (show a < fs.length by omega))
  have lb := h1 _ (List.getElem_mem (show b < fs.length by omega))
  generalize fs[a] = fa at *
  generalize fs[b] = fb at *
  match fa, fb, la, lb with
  | [x], [y], _, _ => exact Fl.lessThanF_iff x y

theorem cmFlat_ok (v : Env K σ) {P : AProb K} (hnobj : P.info.nobj = 1) (hnc : P.info.nc = 0) {p : Pop.State K}
    (hf : ∀ f ∈ p.f, f.length = 1) (hne : p.f ≠ []) (hsz : p.f.length ≤ 2 ^ 63) :
    ∃ d, flatness v P p = .ok d ∧ ((∀ f ∈ p.f, Fl.nan ∉ f) → Spread v.op p.f d) := by
  by_cases hn : ∀ f ∈ p.f, Fl.nan ∉ f
  · obtain ⟨d, h1, h2⟩ := flatness_ok v hnobj hnc hf hne hsz hn
    exact ⟨d, h1, fun _ => h2⟩
  · obtain ⟨⟨i, e1, h1⟩, j, e2, h2⟩ := idx_lt (srt := v.srt) (sq := v.sq) hnobj hnc hne hsz p.tol
    have l1 := hf _ (List.getElem_mem h1)
    have l2 := hf _ (List.getElem_mem h2)
    unfold flatness
    rw [e1, Outcome.bind_ok, e2, Outcome.bind_ok, Outcome.get_of_lt h1, Outcome.bind_ok, Outcome.get_of_lt h2, Outcome.bind_ok,
      Outcome.get_of_lt (show 0 < p.f[i].length by omega), Outcome.bind_ok, Outcome.get_of_lt (show 0 < p.f[j].length by omega), Outcome.bind_ok]
    exact ⟨_, rfl, fun h => absurd h hn⟩

theorem spread_unique {op : Fl.Ops K} {fs : List (List (Fl K))} {d d' : Fl K} (h : Spread op fs d) (h' : Spread op fs d') : d = d' := by
  obtain ⟨a, b, ha, hb, hab, rfl⟩ := h
  obtain ⟨a', b', ha', hb', hab', rfl⟩ := h'
  have e1 : a = a' := le_antisymm (hab _ ha').1 (hab' _ ha).1
  have e2 : b = b' := le_antisymm (hab' _ hb).2 (hab _ hb').2
  rw [e1, e2]

/-- What a run works with: the members, the individuals, the evaluations. -/
structure CmState (K : Type) (n : Nat) where
  vars : CmVars K n
  xs : List (List (Fl K))
  fs : List (List (Fl K))
  evs : List (ECall K)

/-- New individuals from the vectors `zs` of normal numbers, all of them evaluated in turn. -/
structure CmTurn (v : CmEnv K σ) (P : AProb K) (A : Cmaes K) (lam : Nat) (a : CmState K P.info.nx) (zs : List (Vec K P.info.nx))
    (b : CmState K P.info.nx) : Prop where
  xl : b.xs.length = lam
  fl : b.fs.length = lam
  pts : zs.mapM (cmPoint v P A a.vars) = .ok b.xs
  f1 : ∀ f ∈ b.fs, f.length = 1
  ev : b.evs = a.evs ++ asCalls (b.xs.zip b.fs)

/-- The vectors drawn for a generation. -/
def CmDrawn {n : Nat} (lam : Nat) (zs : List (Vec K n)) : Prop := zs.length = lam ∧ ∀ z ∈ zs, VecFin z

/-- The step to the last individual is shorter than `xtol`. -/
def CmNear (v : CmEnv K σ) (A : Cmaes K) {n : Nat} (lam : Nat) (b : CmVars K n) (zs : List (Vec K n)) : Prop :=
  ∃ z, zs[lam - 1]? = some z ∧ Fl.lt (laNorm v.op v.sq (cmMove v.op b z)) A.xtol = true

/-- The best and the worst fitness differ by less than `ftol`. -/
def CmFlat (op : Fl.Ops K) (ftol : Fl K) (fs : List (List (Fl K))) : Prop := ∃ d, Spread op fs d ∧ Fl.lt d ftol = true

/-- the coefficients of a chromosome -/
def cmVec (n : Nat) (x : List (Fl K)) : Vec K n := fun i => x.getD i.1 (.fin 0)

/-- A generation. -/
def CmFull (v : CmEnv K σ) (P : AProb K) (A : Cmaes K) (lam : Nat) (a b : CmState K P.info.nx) : Prop :=
  ∃ (zs : List (Vec K P.info.nx)) (idx : List Nat), CmDrawn lam zs ∧ ¬ CmNear v A lam a.vars zs ∧
    ((∀ f ∈ a.fs, Fl.nan ∉ f) → ¬ CmFlat v.op A.ftol a.fs) ∧ CmTurn v P A lam a zs b ∧
    IsSorted (cmLess b.fs) (List.range lam) idx ∧
    b.vars = cmUpdate v (cmCoef v A P.info.nx lam) lam a.vars
      ((cmWeights v (lam / 2)).zip ((idx.take (lam / 2)).map (fun i => cmVec P.info.nx (b.xs.getD i []))))

/-- A generation in which the run stops: nothing is evaluated. -/
def CmLast (v : CmEnv K σ) (P : AProb K) (A : Cmaes K) (lam : Nat) (a b : CmState K P.info.nx) : Prop :=
  ∃ zs : List (Vec K P.info.nx), CmDrawn lam zs ∧
    (CmNear v A lam a.vars zs ∨ ((∀ f ∈ a.fs, Fl.nan ∉ f) → CmFlat v.op A.ftol a.fs)) ∧ b = a

/-- state of the run, for `CmFull` -/
def cmSt (P : AProb K) (b : CmVars K P.info.nx) (s : St K σ) : CmState K P.info.nx := ⟨b, s.pop.x, s.pop.f, s.evs⟩

/-- A point that may be evaluated: with `force_bounds`, each component is within the bounds unless it is NaN. -/
def CmBox (A : Cmaes K) (P : AProb K) (x : List (Fl K)) : Prop :=
  x.length = P.info.nx ∧ (A.force = true → ∀ (j : Nat) (l u w : Fl K), P.lb[j]? = some l → P.ub[j]? = some u → x[j]? = some w → w ≠ .nan → l ≤ w ∧ w ≤ u)

theorem cmPoint_ok {v : CmEnv K σ} {P : AProb K} (hP : FiniteBox P) (A : Cmaes K) (b : CmVars K P.info.nx) (z : Vec K P.info.nx) :
    ∃ x, cmPoint v P A b z = .ok x ∧ CmBox A P x := by
  have hlu : P.ub.length = P.info.nx := by rw [← hP.bounds.len, hP.nx]
  unfold cmPoint
  dsimp only
  by_cases hf : A.force = true
  · rw [if_pos hf, vecOf_ok hP.nx.symm, Outcome.bind_ok, vecOf_ok hlu, Outcome.bind_ok]
    refine ⟨_, rfl, by simp, ?_⟩
    intro _ i l u w h1 h2 h3 h4
    obtain ⟨hi, hw⟩ := List.getElem?_eq_some_iff.mp h3
    rw [List.length_ofFn] at hi
    rw [List.getElem_ofFn] at hw
    have hl := (List.getElem?_eq_some_iff.mp h1).2
    have hu := (List.getElem?_eq_some_iff.mp h2).2
    dsimp only at hw
    rw [hl, hu] at hw
    generalize v.op.add (b.mean ⟨i, hi⟩) (cmMove v.op b z ⟨i, hi⟩) = y at hw
    have hlu' := (hP.bounds.ordered i l u h1 h2)
    obtain ⟨p, rfl⟩ := hP.finL l (List.mem_of_getElem? h1)
    obtain ⟨q, rfl⟩ := hP.finU u (List.mem_of_getElem? h2)
    unfold xnClamp at hw
    subst hw
    split
    · exact ⟨le_rfl, hlu'.2.2⟩
    · rename_i h5
      split
      · exact ⟨hlu'.2.2, le_rfl⟩
      · rename_i h6
        rw [if_neg h5, if_neg h6] at h4
        constructor
        · by_contra hc
          exact h5 ((Fl.lt_iff h4 (by simp)).mpr (not_le.mp hc))
        · by_contra hc
          exact h6 ((Fl.lt_iff (by simp) h4).mpr (not_le.mp hc))
  · rw [if_neg hf]
    exact ⟨_, rfl, by simp, fun h => absurd h hf⟩

/-- Where an exception may come from: the fitness function, lack of memory, the batch evaluator (or a result of the wrong size). -/
def CmFault (P : AProb K) (bfe : Option (Batch K)) (s0 : St K σ) (evs : List (ECall K)) (e : Exn) : Prop :=
  UserFault P evs e ∨ e = .badAlloc ∧ s0.pop.faults ≠ [] ∨
  ∃ b dvs, bfe = some b ∧ (b evs dvs = .error e ∨
    e = .invalidArgument ∧ ∃ fvs, b evs dvs = .ok fvs ∧ fvs.length ≠ dvs.length / P.info.nx * P.info.nf)

/-- A run that ended with an exception. -/
def CmFailed (B : List (Fl K) → Prop) (P : AProb K) (bfe : Option (Batch K)) (s0 : St K σ) (e : Exn) (s : St K σ) : Prop :=
  EvsBy B s0 s ∧ CmFault P bfe s0 s.evs e

theorem cmFailed_of {B : List (Fl K) → Prop} {P : AProb K} {bfe : Option (Batch K)} {s0 s : St K σ} {e : Exn}
    (h : FailedBy B P s0 e s) : CmFailed B P bfe s0 e s := by
  refine ⟨evsBy_of_failed h, ?_⟩
  obtain ⟨new, h1, h2, h3 | h3⟩ := h
  · exact Or.inl h3
  · exact Or.inr (Or.inl h3)

theorem eq_of_prefix {α : Type} {xs ys : List α} {n : Nat} (h1 : xs.length = n) (h2 : ys.length = n) (h : ∀ j, j < n → xs[j]? = ys[j]?) : xs = ys := by
  apply List.ext_getElem?
  intro j
  by_cases hj : j < n
  · exact h j hj
  · rw [List.getElem?_eq_none (by omega), List.getElem?_eq_none (by omega)]

section
variable [IsStrictOrderedRing K]

theorem wp_cmEval {v : CmEnv K σ} {P : AProb K} (hnx : 0 < P.info.nx) (hnobj : 0 < P.info.nobj) (hnc : P.info.nc = 0)
    {bfe : Option (Batch K)} (hok : ∀ b, bfe = some b → BatchOk P b) {B : List (Fl K) → Prop} {s0 s : St K σ} {new : List (ECall K)} (ht : TrackedBy B P s0 new s)
    {xs : List (List (Fl K))} (hl : xs.length = s0.pop.id.length) (hx : ∀ x ∈ xs, x.length = P.info.nx) (hB : ∀ x ∈ xs, B x) :
    wp (cmEval v P bfe s0.pop.id.length xs) (fun _ s' => s'.pop.x = xs ∧
      TrackedBy B P s0 (new ++ asCalls (s'.pop.x.zip s'.pop.f)) s') (CmFailed B P bfe s0) s := by
  unfold cmEval
  cases bfe with
  | none =>
    dsimp only
    refine (wp_range (fun i (_ : Unit) (s' : St K σ) => (∀ j, j < i → s'.pop.x[j]? = xs[j]?) ∧
      TrackedBy B P s0 (new ++ asCalls ((s'.pop.x.zip s'.pop.f).take i)) s') s0.pop.id.length () s
      ⟨by omega, by simpa [asCalls] using ht⟩ ?_).mono ?_ (fun _ _ h => h)
    · rintro i _ s1 hi ⟨hp, ht1⟩
      have hid := ht1.id
      have hxl := ht1.inv.wf.xs
      have hfl := ht1.inv.wf.fs
      have hix : i < xs.length := by omega
      have hm := List.getElem_mem hix
      unfold cmSet
      rw [wp_bind, wp_lift_get hix]
      refine wp_xnSetX hnx hnobj ht1 (by rw [hid]; exact hi) (hx _ hm) (hB _ hm) ?_ (fun _ _ h => cmFailed_of h)
      intro f s2 hf ht2 hx2 hf2 _
      refine ⟨fun j hj => ?_, ?_⟩
      · by_cases e : j = i
        · subst e
          rw [hx2, List.getElem?_set_self (by rw [hxl, hid]; exact hi), List.getElem?_eq_getElem hix]
        · rw [hx2, List.getElem?_set_ne (by omega)]
          exact hp j (by omega)
      · rw [hx2, hf2, zip_take_set2 (by rw [hxl, hid]; exact hi) (by rw [hfl, hid]; exact hi)]
        simpa [asCalls] using ht2
    · rintro _ s1 ⟨hp, ht1⟩
      have hid := ht1.id
      have hxl := ht1.inv.wf.xs
      have hfl := ht1.inv.wf.fs
      have hlz : (s1.pop.x.zip s1.pop.f).length = s0.pop.id.length := by
        rw [List.length_zip, hxl, hfl, hid, Nat.min_self]
      rw [← hlz, List.take_length] at ht1
      exact ⟨eq_of_prefix (by rw [hxl, hid]) hl hp, ht1⟩
  | some b =>
    dsimp only
    rw [wp_bind]
    refine wp_evalBatch' (hok b rfl) hnx hnobj hnc ht hx hB ?_ ?_
    · intro fs s1 hfl1 hfd hpop _ ht1
      refine (wp_range (fun i (_ : Unit) (s' : St K σ) => (∀ j, j < i → s'.pop.x[j]? = xs[j]? ∧ s'.pop.f[j]? = fs[j]?) ∧
        TrackedBy B P s0 (new ++ asCalls (xs.zip fs)) s') s0.pop.id.length () s1
        ⟨by omega, ht1⟩ ?_).mono ?_ (fun _ _ h => h)
      · rintro i _ s2 hi ⟨hp, ht2⟩
        have hid := ht2.id
        have hxl := ht2.inv.wf.xs
        have hfl := ht2.inv.wf.fs
        have hix : i < xs.length := by omega
        have hif : i < fs.length := by omega
        unfold cmStore
        rw [wp_bind, wp_lift_get hix, wp_bind, wp_lift_get hif]
        refine wp_setXF_tracked hnx hnobj ht2 (by rw [hid]; exact hi) (hx _ (List.getElem_mem hix)) (hfd _ (List.getElem_mem hif)) ?_
          (fun _ _ h => cmFailed_of h)
        intro s3 ht3 _ hx3 hf3 _
        refine ⟨fun j hj => ?_, ht3⟩
        by_cases e : j = i
        · subst e
          rw [hx3, hf3, List.getElem?_set_self (by rw [hxl, hid]; exact hi), List.getElem?_set_self (by rw [hfl, hid]; exact hi),
            List.getElem?_eq_getElem hix, List.getElem?_eq_getElem hif]
          exact ⟨rfl, rfl⟩
        · rw [hx3, hf3, List.getElem?_set_ne (by omega), List.getElem?_set_ne (by omega)]
          exact hp j (by omega)
      · rintro _ s2 ⟨hp, ht2⟩
        have hid := ht2.id
        have hxl := ht2.inv.wf.xs
        have hfl := ht2.inv.wf.fs
        have e1 := eq_of_prefix (by rw [hxl, hid]) hl (fun j hj => (hp j hj).1)
        have e2 := eq_of_prefix (by rw [hfl, hid]) (hfl1.trans hl) (fun j hj => (hp j hj).2)
        rw [e1, e2]
        exact ⟨rfl, ht2⟩
    · intro e he
      refine ⟨evsBy_of_tracked ht, Or.inr (Or.inr ⟨b, xs.flatten, rfl, he⟩)⟩

end

theorem wp_cmDraw {v : CmEnv K σ} {n lam : Nat} {Q : List (Vec K n) → St K σ → Prop} {E : Exn → St K σ → Prop} {s : St K σ}
    (h : ∀ zs e, CmDrawn lam zs → Q zs { s with e := e }) : wp ((List.range lam).foldlM (cmDraw v n) []) Q E s := by
  refine (wp_range (fun i (zs : List (Vec K n)) (s' : St K σ) => CmDrawn i zs ∧ ∃ e, s' = { s with e := e })
    lam [] s ⟨⟨rfl, by simp⟩, s.e, rfl⟩ ?_).mono ?_ (fun _ _ h => h)
  · rintro i zs s1 hi ⟨⟨hzl, hzf⟩, e, rfl⟩
    unfold cmDraw
    rw [wp_bind, wp_onRng]
    refine wp_drawVec v.d _ _ ?_
    intro z e' hz
    refine ⟨⟨by simp [hzl], fun w hw => ?_⟩, e', rfl⟩
    rcases List.mem_append.mp hw with hw | hw
    · exact hzf w hw
    · rw [List.mem_singleton.mp hw]; exact hz
  · rintro zs s1 ⟨hd, e, rfl⟩
    exact h zs e hd

theorem cmReset_ok {v : CmEnv K σ} {P : AProb K} (hP : FiniteBox P) (hnobj : P.info.nobj = 1) (hnc : P.info.nc = 0) (A : Cmaes K)
    {p : Pop.State K} (hi : Inv P.info p) (hne : p.id ≠ []) (hsz : p.id.length ≤ 2 ^ 63) : ∃ b, cmReset v P A p = .ok b := by
  have hlu : P.ub.length = P.info.nx := by rw [← hP.bounds.len, hP.nx]
  have hfne : p.f ≠ [] := fun h => hne (List.length_eq_zero_iff.mp (by rw [← hi.wf.fs, h]; rfl))
  obtain ⟨i, e1, e2⟩ := (idx_lt (srt := v.srt) (sq := v.sq) hnobj hnc hfne (by rw [hi.wf.fs]; exact hsz) p.tol).1
  have hix : i < p.x.length := by rw [hi.wf.xs, ← hi.wf.fs]; exact e2
  have hxd := hi.wf.dimX _ (List.getElem_mem hix)
  unfold cmReset
  rw [e1, Outcome.bind_ok, Outcome.get_of_lt hix, Outcome.bind_ok, vecOf_ok hxd, Outcome.bind_ok, vecOf_ok hP.nx.symm, Outcome.bind_ok,
    vecOf_ok hlu, Outcome.bind_ok]
  exact ⟨_, rfl⟩

/-- the first generations of a run, `k` of them -/
structure CmMid (v : CmEnv K σ) (P : AProb K) (A : Cmaes K) (b0 : CmVars K P.info.nx) (s0 : St K σ) (k : Nat) (b : CmVars K P.info.nx)
    (s : St K σ) : Prop where
  tr : ∃ new, TrackedBy (CmBox A P) P s0 new s ∧ new.length = k * s0.pop.id.length
  run : Steps (CmFull v P A s0.pop.id.length) k (cmSt P b0 s0) (cmSt P b s)

/-- a run that stopped early in generation `k` -/
structure CmEarly (v : CmEnv K σ) (P : AProb K) (A : Cmaes K) (b0 : CmVars K P.info.nx) (s0 : St K σ) (k : Nat) (b : CmVars K P.info.nx)
    (s : St K σ) : Prop where
  tr : ∃ new, TrackedBy (CmBox A P) P s0 new s ∧ new.length = (k - 1) * s0.pop.id.length
  run : ∃ m, Steps (CmFull v P A s0.pop.id.length) (k - 1) (cmSt P b0 s0) m ∧ CmLast v P A s0.pop.id.length m (cmSt P b s)

section
variable [IsStrictOrderedRing K]

theorem wp_cmGen {v : CmEnv K σ} {rep : K → Prop} (hg : v.g.Lawful rep) (hsrt : ValidSort v.srt) {P : AProb K} (hP : FiniteBox P)
    (hnobj : P.info.nobj = 1) (hnc : P.info.nc = 0) {A : Cmaes K} {bfe : Option (Batch K)} (hok : ∀ b, bfe = some b → BatchOk P b) {s0 : St K σ}
    (h0 : 0 < s0.pop.id.length) (hsz : s0.pop.id.length ≤ 2 ^ 63)
    {b0 b : CmVars K P.info.nx} {k g : Nat} {s : St K σ} (h : CmMid v P A b0 s0 k b s) :
    wp (cmGen v P A bfe s0.pop.id.length g b) (fun r s' => (r.2 = false → CmMid v P A b0 s0 (k + 1) r.1 s') ∧
      (r.2 = true → CmEarly v P A b0 s0 (k + 1) r.1 s')) (CmFailed (CmBox A P) P bfe s0) s := by
  have hnf : P.info.nf = 1 := by simp only [Info.nf, Info.nc] at *; omega
  have hnx0 : 0 < P.info.nx := by rw [hP.nx]; exact List.length_pos_iff.mpr hP.bounds.nonempty
  obtain ⟨⟨new, ht, hl⟩, hrun⟩ := h
  unfold cmGen
  rw [wp_bind]
  refine wp_cmDraw ?_
  intro zs e hd
  have hz0 : s0.pop.id.length - 1 < zs.length := by rw [hd.1]; omega
  rw [wp_bind, wp_lift_get hz0]
  have hz1 := List.getElem?_eq_getElem hz0
  have early : (CmNear v A s0.pop.id.length b zs ∨ ((∀ f ∈ s.pop.f, Fl.nan ∉ f) → CmFlat v.op A.ftol s.pop.f)) →
      CmEarly v P A b0 s0 (k + 1) b { s with e := e } := by
    intro he
    exact ⟨⟨new, tracked_rng ht e, by simpa using hl⟩, cmSt P b s, by simpa using hrun, zs, hd, he, rfl⟩
  split
  · rename_i hx
    exact ⟨(fun h => by cases h), fun _ => early (Or.inl ⟨_, hz1, hx⟩)⟩
  · rename_i hnear
    have hnear' : ¬ CmNear v A s0.pop.id.length b zs := by
      rintro ⟨z, h1, h2⟩
      rw [hz1, Option.some.injEq] at h1
      subst h1
      exact hnear h2
    rw [wp_bind, wp_get']
    have hfl : s.pop.f.length = s0.pop.id.length := by rw [ht.inv.wf.fs, ht.id]
    have hfne : s.pop.f ≠ [] := fun h => by rw [h] at hfl; simp at hfl; omega
    obtain ⟨d, hd1, hS⟩ := cmFlat_ok v.toEnv hnobj hnc (p := s.pop) (fun f hf => by rw [← hnf]; exact ht.inv.wf.dimF f hf) hfne (by rw [hfl]; exact hsz)
    rw [wp_bind]
    dsimp only
    rw [hd1, wp_lift_ok]
    split
    · rename_i hx
      exact ⟨(fun h => by cases h), fun _ => early (Or.inr fun hn => ⟨d, hS hn, hx⟩)⟩
    · rename_i hflat
      have hflat' : (∀ f ∈ s.pop.f, Fl.nan ∉ f) → ¬ CmFlat v.op A.ftol s.pop.f := by
        rintro hn ⟨d', h1, h2⟩
        rw [spread_unique h1 (hS hn)] at h2
        exact hflat h2
      have hpt := cmPoint_ok (v := v) hP A b
      choose pt hpt1 hpt2 using hpt
      have hxs : zs.mapM (cmPoint v P A b) = .ok (zs.map pt) := Outcome.mapM_ok pt zs (fun z _ => hpt1 z)
      rw [wp_bind, hxs, wp_lift_ok, wp_bind]
      refine wp_newSeed hg P ?_
      intro e'
      rw [wp_bind]
      have hB : ∀ x ∈ zs.map pt, CmBox A P x := by
        intro x hx
        obtain ⟨z, _, rfl⟩ := List.mem_map.mp hx
        exact hpt2 z
      refine (wp_cmEval (B := CmBox A P) hnx0 (by omega) hnc hok (tracked_rng (tracked_rng ht e) e') (by rw [List.length_map, hd.1])
        (fun x hx => (hB x hx).1) hB).mono ?_ (fun _ _ h => h)
      rintro _ s1 ⟨hx1, ht1⟩
      rw [wp_bind, wp_get']
      have hid := ht1.id
      have hxl : s1.pop.x.length = s0.pop.id.length := by rw [ht1.inv.wf.xs, hid]
      have hfl1 : s1.pop.f.length = s0.pop.id.length := by rw [ht1.inv.wf.fs, hid]
      have hf1 : ∀ f ∈ s1.pop.f, f.length = 1 := fun f hf => by rw [← hnf]; exact ht1.inv.wf.dimF f hf
      obtain ⟨idx, hidx, hs⟩ := stdSort_sat hsrt (swo_cmLess hfl1 hf1)
      rw [wp_bind, hidx, wp_lift_ok, wp_bind]
      have hlt : ∀ i ∈ idx, i < s1.pop.x.length := by
        intro i hi
        rw [hxl]
        exact List.mem_range.mp (hs.perm.mem_iff.mp hi)
      rw [Outcome.mapM_ok (fun i => cmVec P.info.nx (s1.pop.x.getD i [])) (idx.take (s0.pop.id.length / 2)) (by
        intro i hi
        have hi' := hlt i (List.mem_of_mem_take hi)
        have hdim := ht1.inv.wf.dimX _ (List.getElem_mem hi')
        rw [Outcome.get_of_lt hi', Outcome.bind_ok, vecOf_ok hdim, List.getD_eq_getElem _ _ hi']
        congr 1
        funext j
        unfold cmVec
        rw [List.getD_eq_getElem _ _ (by rw [hdim]; exact j.2)]), wp_lift_ok]
      refine ⟨fun _ => ⟨⟨_, ht1, ?_⟩, Steps.snoc hrun ⟨zs, idx, hd, hnear', hflat', ?_, hs, rfl⟩⟩, (fun h => by cases h)⟩
      · simp only [List.length_append, hl, asCalls, List.length_map, List.length_zip, hxl, hfl1, Nat.min_self]
        ring
      · refine ⟨hxl, hfl1, ?_, hf1, ?_⟩
        · simp only [cmSt]
          rw [hxs, hx1]
        · simp only [cmSt]
          rw [ht1.evs, ← List.append_assoc, ← ht.evs]

/-- A run: the members before, the generations, the last one. -/
def CmRan (v : CmEnv K σ) (P : AProb K) (A : Cmaes K) (m : CmMem K) (s : St K σ) (m' : CmMem K) (s' : St K σ) : Prop :=
  ∃ b0 b : CmVars K P.info.nx, cmInit v P A s.pop m = .ok b0 ∧ m' = ⟨P.info.nx, s.pop.id.length, b⟩ ∧
    (CmMid v P A b0 s A.gens b s' ∨ ∃ k ≤ A.gens, 0 < k ∧ CmEarly v P A b0 s k b s')

theorem cm_run {v : CmEnv K σ} {rep : K → Prop} (hg : v.g.Lawful rep) (hsrt : ValidSort v.srt) {P : AProb K} (hP : FiniteBox P)
    (hnobj : P.info.nobj = 1) (hnc : P.info.nc = 0) {A : Cmaes K} (hgens : A.gens + 1 < 2 ^ 32) (hgens0 : A.gens ≠ 0)
    {bfe : Option (Batch K)} (hok : ∀ b, bfe = some b → BatchOk P b)
    {s : St K σ} (hi : Inv P.info s.pop) (h5 : 5 ≤ s.pop.id.length) (hsz : s.pop.id.length ≤ 2 ^ 63) (m : CmMem K) {fuel : Nat} (hfuel : A.gens < fuel) :
    wp (cmEvolve v P A bfe fuel m) (fun m' s' => CmRan v P A m s m' s') (CmFailed (CmBox A P) P bfe s) s := by
  have hnf : P.info.nf = 1 := by simp only [Info.nf, Info.nc] at *; omega
  have hfinL : P.lb.any (fun a => !a.isFinite) = false := by
    rw [List.any_eq_false]
    intro a ha
    obtain ⟨c, rfl⟩ := hP.finL a ha
    simp [Fl.isFinite]
  have hfinU : P.ub.any (fun a => !a.isFinite) = false := by
    rw [List.any_eq_false]
    intro a ha
    obtain ⟨c, rfl⟩ := hP.finU a ha
    simp [Fl.isFinite]
  have hinit : ∃ b0, cmInit v P A s.pop m = .ok b0 := by
    obtain ⟨b, hb⟩ := cmReset_ok (v := v) hP hnobj hnc A hi (fun h => by rw [h] at h5; simp at h5) hsz
    unfold cmInit
    split
    · exact ⟨b, hb⟩
    · split
      · split
        · exact ⟨b, hb⟩
        · exact ⟨_, rfl⟩
      · exact ⟨b, hb⟩
  obtain ⟨b0, hb0⟩ := hinit
  unfold cmEvolve
  rw [wp_bind, wp_get, if_neg (by omega), if_neg (by omega), if_neg (by omega), hfinL, if_neg (by simp), hfinU, if_neg (by simp),
    if_neg hgens0, wp_bind, hb0, wp_lift_ok, wp_bind]
  refine (wp_genLoop_stop hgens (CmMid v P A b0 s) (CmEarly v P A b0 s) ?_ fuel 0 b0 s (by omega) (by omega) ?_).mono ?_ (fun _ _ h => h)
  · intro k b s1 _ h
    exact wp_cmGen hg hsrt hP hnobj hnc hok (by omega) hsz h
  · exact ⟨⟨[], tracked_refl hi, by simp⟩, .refl _⟩
  · rintro b s1 h
    exact ⟨b0, b, hb0, rfl, h⟩

end

end Verif.Props
