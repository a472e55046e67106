import Verif.Model.Xnes
import Verif.Proof.Sade
import Verif.Proof.Moead
import Verif.Props.Sea

/-!
# Helper lemmas for `Verif.Props.Xnes`
-/

set_option autoImplicit false

namespace Verif.Props

open Verif Run Prob Pop Alg

variable {K σ : Type} [Field K] [LinearOrder K]

/-! ### Vectors and matrices -/

/-- all coefficients are finite -/
def VecFin {n : Nat} (x : Vec K n) : Prop := ∀ i, ∃ a : K, x i = .fin a

/-- all coefficients are finite -/
def MatFin {n : Nat} (A : Mat K n) : Prop := ∀ i j, ∃ a : K, A i j = .fin a

theorem laSum_fin {op : Fl.Ops K} (hop : NoOverflow op) (h0 : ∃ a, op.zero = .fin a) {n : Nat} {x : Vec K n} (hx : VecFin x) :
    ∃ a, laSum op x = .fin a := by
  unfold laSum
  have key : ∀ (l : List (Fin n)) (s : Fl K), (∃ a, s = .fin a) → ∃ a, l.foldl (fun s j => op.add s (x j)) s = .fin a := by
    intro l
    induction l with
    | nil => intro s h; exact h
    | cons j l ih =>
      rintro s ⟨a, rfl⟩
      obtain ⟨b, hb⟩ := hx j
      rw [List.foldl_cons, hb]
      exact ih _ (hop.add a b)
  exact key _ _ h0

theorem laApply_fin {op : Fl.Ops K} (hop : NoOverflow op) (h0 : ∃ a, op.zero = .fin a) {n : Nat} {A : Mat K n} (hA : MatFin A)
    {x : Vec K n} (hx : VecFin x) : VecFin (laApply op A x) := by
  intro i
  refine laSum_fin hop h0 fun j => ?_
  obtain ⟨a, ha⟩ := hA i j
  obtain ⟨b, hb⟩ := hx j
  rw [ha, hb]
  exact hop.mul a b

theorem laMul_fin {op : Fl.Ops K} (hop : NoOverflow op) (h0 : ∃ a, op.zero = .fin a) {n : Nat} {A B : Mat K n} (hA : MatFin A)
    (hB : MatFin B) : MatFin (laMul op A B) := by
  intro i j
  refine laSum_fin hop h0 fun k => ?_
  obtain ⟨a, ha⟩ := hA i k
  obtain ⟨b, hb⟩ := hB k j
  rw [ha, hb]
  exact hop.mul a b

theorem laId_fin (n : Nat) : MatFin (laId n : Mat K n) := by
  intro i j
  unfold laId
  split <;> exact ⟨_, rfl⟩

theorem vecOf_ok {n : Nat} {l : List (Fl K)} (h : l.length = n) : vecOf n l = .ok (fun i => l[i.1]'(by omega)) := by
  unfold vecOf
  rw [dif_pos h.ge]

theorem wp_drawVec (d : Dist K σ) {E : Exn → σ → Prop} (n : Nat) (s : σ) {Q : Vec K n → σ → Prop} (h : ∀ z s', VecFin z → Q z s') : wp (drawVec d n) Q E s := by
  induction n generalizing s with
  | zero => exact h _ _ (fun i => i.elim0)
  | succ n ih =>
    unfold drawVec
    rw [wp_bind]
    refine ih s ?_
    intro z s' hz
    rw [wp_bind]
    refine h _ _ ?_
    intro i
    dsimp only
    split
    · exact hz _
    · exact ⟨_, rfl⟩

/-! ### The population -/

theorem zip_take_set2 {α β : Type} {xs : List α} {fs : List β} {j : Nat} {x : α} {f : β} (h1 : j < xs.length) (h2 : j < fs.length) :
    ((xs.set j x).zip (fs.set j f)).take (j + 1) = (xs.zip fs).take j ++ [(x, f)] := by
  apply List.ext_getElem?
  intro k
  grind

/-- the objective, for comparisons -/
def keyOf (fs : List (List (Fl K))) (i : Nat) : Fl K := valueOf (fs.getD i [])

theorem swo_xnLess {fs : List (List (Fl K))} {lam : Nat} (hl : fs.length = lam) (h1 : ∀ f ∈ fs, f.length = 1)
    (hn : ∀ f ∈ fs, Fl.nan ∉ f) : swoOn (xnLess fs) (List.range lam) = true := by
  refine swoOn_of_key (keyOf fs) fun a ha b hb => ?_
  have ha' := List.mem_range.mp ha
  have hb' := List.mem_range.mp hb
  unfold xnLess keyOf
  rw [List.getElem?_eq_getElem (show a < fs.length by omega), List.getElem?_eq_getElem (show b < fs.length by omega),
    List.getD_eq_getElem _ _ (show a < fs.length by omega), List.getD_eq_getElem _ _ (show b < fs.length by omega)]
  have la := h1 _ (List.getElem_mem (show a < fs.length by omega))
  have lb := h1 _ (List.getElem_mem (show b < fs.length by omega))
  have na := hn _ (List.getElem_mem (show a < fs.length by omega))
  have nb := hn _ (List.getElem_mem (show b < fs.length by omega))
  generalize fs[a] = fa at *
  generalize fs[b] = fb at *
  match fa, fb, la, lb with
  | [x], [y], _, _ =>
    simp only [List.mem_singleton] at na nb
    exact Fl.lt_iff (Ne.symm na) (Ne.symm nb)

/-- The distance between the best and the worst objective, as computed. -/
def Spread (op : Fl.Ops K) (fs : List (List (Fl K))) (d : Fl K) : Prop :=
  ∃ a b : Fl K, [a] ∈ fs ∧ [b] ∈ fs ∧ (∀ f ∈ fs, a ≤ valueOf f ∧ valueOf f ≤ b) ∧ d = Fl.abs (op.sub a b)

theorem flatness_ok (v : Env K σ) {P : AProb K} (hnobj : P.info.nobj = 1) (hnc : P.info.nc = 0) {p : Pop.State K}
    (hf : ∀ f ∈ p.f, f.length = 1) (hne : p.f ≠ []) (hsz : p.f.length ≤ 2 ^ 63) (hn : ∀ f ∈ p.f, Fl.nan ∉ f) :
    ∃ d, flatness v P p = .ok d ∧ Spread v.op p.f d := by
  have hnf : P.info.nf = 1 := by simp only [Info.nf, Info.nc] at *; omega
  obtain ⟨⟨i, fb, e1, g1, b1⟩, j, fw, e2, g2, b2⟩ := C17_unconstrained_partial v.srt v.sq P.info hnobj hnc p.f hne hsz
    (fun f h => (hf f h).trans hnf.symm) hn p.tol
  unfold flatness
  have m1 := List.mem_of_getElem? g1
  have m2 := List.mem_of_getElem? g2
  have l1 := hf _ m1
  have l2 := hf _ m2
  rw [e1, Outcome.bind_ok, e2, Outcome.bind_ok, Outcome.get_eq_ok_iff.mpr g1, Outcome.bind_ok, Outcome.get_eq_ok_iff.mpr g2, Outcome.bind_ok]
  match fb, fw, l1, l2 with
  | [a], [b], _, _ =>
    refine ⟨_, rfl, a, b, m1, m2, fun f hm => ?_, rfl⟩
    have lf := hf f hm
    have c1 := b1 f hm
    have c2 := b2 f hm
    match f, lf with
    | [c], _ =>
      simp only [Lower, List.getElem?_cons_zero, Option.some.injEq, exists_eq_left', not_lt, exists_and_left] at c1 c2
      exact ⟨c1, c2⟩

theorem wp_newSeed {v : Env K σ} {rep : K → Prop} (hg : v.g.Lawful rep) (P : AProb K) {Q : Unit → St K σ → Prop}
    {E : Exn → St K σ → Prop} {s : St K σ} (h : ∀ e, Q () { s with e := e }) : wp (newSeed v P) Q E s := by
  unfold newSeed
  split
  · rw [wp_bind, wp_onRng]
    exact Gen.wp_drawNat hg (by norm_num) (fun n e _ _ => h e)
  · exact h s.e

/-- What a run works with: the distribution, the individuals, the evaluations. -/
structure XnState (K : Type) (n : Nat) where
  vars : XnVars K n
  xs : List (List (Fl K))
  fs : List (List (Fl K))
  evs : List (ECall K)

/-- New individuals from the vectors `zs` of normal numbers, all of them evaluated in turn. -/
structure XnTurn (v : XnEnv K σ) (P : AProb K) (A : Xnes K) (lam : Nat) (a : XnState K P.info.nx) (zs : List (Vec K P.info.nx))
    (b : XnState K P.info.nx) : Prop where
  zl : zs.length = lam
  xl : b.xs.length = lam
  fl : b.fs.length = lam
  zfin : ∀ z ∈ zs, VecFin z
  pts : ∀ (i : Nat) (z : Vec K P.info.nx) (x : List (Fl K)), zs[i]? = some z → b.xs[i]? = some x → xnPoint v P A a.vars z = .ok x
  f1 : ∀ f ∈ b.fs, f.length = 1
  fnan : ∀ f ∈ b.fs, Fl.nan ∉ f
  ev : b.evs = a.evs ++ asCalls (b.xs.zip b.fs)

/-- The criteria to stop. -/
def XnEnd (v : XnEnv K σ) (A : Xnes K) {n : Nat} (b : XnVars K n) (zs : List (Vec K n)) (fs : List (List (Fl K))) : Prop :=
  (∃ z, zs[0]? = some z ∧ Fl.lt (laNorm v.op v.sq (laApply v.op b.A z)) A.xtol = true) ∨ ∃ d, Spread v.op fs d ∧ Fl.lt d A.ftol = true

/-- A generation. -/
def XnFull (v : XnEnv K σ) (P : AProb K) (A : Xnes K) (lam : Nat) (a b : XnState K P.info.nx) : Prop :=
  ∃ (zs : List (Vec K P.info.nx)) (idx : List Nat), XnTurn v P A lam a zs b ∧
    IsSorted (xnLess b.fs) (List.range lam) idx ∧
    b.vars = xnUpdate v A a.vars ((xnUtil v lam).zip (idx.map (fun i => zs.getD i (fun _ => .fin 0))))

/-- A generation after which the run stops early. -/
def XnLast (v : XnEnv K σ) (P : AProb K) (A : Xnes K) (lam : Nat) (a b : XnState K P.info.nx) : Prop :=
  ∃ zs : List (Vec K P.info.nx), XnTurn v P A lam a zs b ∧ XnEnd v A a.vars zs b.fs ∧ b.vars = a.vars

/-- state of the run, for `XnFull` -/
def xnSt (P : AProb K) (b : XnVars K P.info.nx) (s : St K σ) : XnState K P.info.nx := ⟨b, s.pop.x, s.pop.f, s.evs⟩

/-- finite distribution -/
structure VarsFin {n : Nat} (b : XnVars K n) : Prop where
  mean : VecFin b.mean
  A : MatFin b.A

/-- The arithmetic does not overflow, and the parameters are numbers. -/
structure XnNum (v : XnEnv K σ) (P : AProb K) (A : Xnes K) (lam : Nat) : Prop where
  op : NoOverflow v.op
  zero : ∃ a, v.op.zero = .fin a
  div : ∀ a : K, ∃ c, v.op.div (.fin a) (.fin (v.g.ofInt P.info.nx)) = .fin c
  mexp : ∀ {n : Nat} (M : Mat K n), MatFin M → MatFin (v.mexp M)
  mu : ∃ a, xnMu A = .fin a
  rateS : ∃ a, xnRate v P.info.nx A.etaSigma = .fin a
  rateB : ∃ a, xnRate v P.info.nx A.etaB = .fin a
  sigma : ∃ a, A.sigma0 = .fin a
  util : AllFin (xnUtil v lam)

/-- A point that may be evaluated: a number in every component if the arithmetic stays finite, within the bounds if they are enforced. -/
def XnBox (Num : Prop) (A : Xnes K) (P : AProb K) (x : List (Fl K)) : Prop :=
  x.length = P.info.nx ∧ (Num → AllFin x) ∧ (A.force = true ∧ Num → InBox P.lb P.ub 0 x)

theorem xnPoint_ok {v : XnEnv K σ} {P : AProb K} (hP : FiniteBox P) (A : Xnes K) (b : XnVars K P.info.nx) (z : Vec K P.info.nx) {Num : Prop}
    (hn : Num → NoOverflow v.op ∧ (∃ a, v.op.zero = .fin a) ∧ VarsFin b) (hz : VecFin z) :
    ∃ x, xnPoint v P A b z = .ok x ∧ XnBox Num A P x := by
  have hlu : P.ub.length = P.info.nx := by rw [← hP.bounds.len, hP.nx]
  have hpt : Num → ∀ i : Fin P.info.nx, ∃ c, v.op.add (b.mean i) (laApply v.op b.A z i) = .fin c := by
    intro hnum i
    obtain ⟨hop, h0, hb⟩ := hn hnum
    obtain ⟨p, hp⟩ := hb.mean i
    obtain ⟨q, hq⟩ := laApply_fin hop h0 hb.A hz i
    rw [hp, hq]; exact hop.add p q
  unfold xnPoint
  dsimp only
  by_cases hf : A.force = true
  · rw [if_pos hf, vecOf_ok hP.nx.symm, Outcome.bind_ok, vecOf_ok hlu, Outcome.bind_ok]
    refine ⟨_, rfl, by simp, ?_, ?_⟩
    · intro hnum w hw
      obtain ⟨i, rfl⟩ := (List.mem_ofFn' _ _).mp hw
      obtain ⟨c, hc⟩ := hpt hnum i
      dsimp only
      rw [hc]
      unfold xnClamp
      split
      · exact hP.finL _ (List.getElem_mem _)
      · split
        · exact hP.finU _ (List.getElem_mem _)
        · exact ⟨c, rfl⟩
    rintro ⟨-, hnum⟩
    refine inBox0 (by simp [hP.nx]) ?_
    intro i l u w h1 h2 h3
    obtain ⟨hi, hw⟩ := List.getElem?_eq_some_iff.mp h3
    rw [List.length_ofFn] at hi
    rw [List.getElem_ofFn] at hw
    have hl := (List.getElem?_eq_some_iff.mp h1).2
    have hu := (List.getElem?_eq_some_iff.mp h2).2
    dsimp only at hw
    rw [hl, hu] at hw
    obtain ⟨c, hc⟩ := hpt hnum ⟨i, hi⟩
    rw [hc] at hw
    have hlu' := (hP.bounds.ordered i l u h1 h2)
    obtain ⟨p, rfl⟩ := hP.finL l (List.mem_of_getElem? h1)
    obtain ⟨q, rfl⟩ := hP.finU u (List.mem_of_getElem? h2)
    have hpq := Fl.fin_le_fin.mp hlu'.2.2
    unfold xnClamp at hw
    simp only [Fl.lt, Fl.gt, decide_eq_true_eq] at hw
    rw [← hw]
    split
    · exact ⟨le_rfl, hlu'.2.2⟩
    · rename_i h4
      split
      · exact ⟨hlu'.2.2, le_rfl⟩
      · rename_i h5
        exact ⟨Fl.fin_le_fin.mpr (not_lt.mp h4), Fl.fin_le_fin.mpr (not_lt.mp h5)⟩
  · rw [if_neg hf]
    refine ⟨_, rfl, by simp, ?_, fun h => absurd h.1 hf⟩
    intro hnum w hw
    obtain ⟨i, rfl⟩ := (List.mem_ofFn' _ _).mp hw
    exact hpt hnum i

section
variable [IsStrictOrderedRing K]

theorem wp_xnSetX {B : List (Fl K) → Prop} {v : Env K σ} {P : AProb K} {s0 s : St K σ} {new : List (ECall K)} {i : Nat} {x : List (Fl K)}
    {Q : Unit → St K σ → Prop} {E : Exn → St K σ → Prop} (hnx : 0 < P.info.nx) (hnobj : 0 < P.info.nobj)
    (ht : TrackedBy B P s0 new s) (hi : i < s.pop.id.length) (hx : x.length = P.info.nx) (hB : B x)
    (hq : ∀ f s', f.length = P.info.nf → TrackedBy B P s0 (new ++ [(x, .ok f)]) s' → s'.pop.x = s.pop.x.set i x →
      s'.pop.f = s.pop.f.set i f → (∃ h, .ok f = P.fit h x) → Q () s')
    (he : ∀ e s', FailedBy B P s0 e s' → E e s') : wp (setX v P i x) Q E s := by
  unfold setX
  rw [wp_bind]
  refine wp_eval_by hx ht hB ?_ he
  intro f s1 hf hpop _ ht1
  have hu := ht1.user (x, .ok f) (by simp)
  refine wp_setXF_tracked hnx hnobj ht1 (by rw [hpop]; exact hi) hx hf ?_ he
  intro s2 ht2 _ hx2 hf2 _
  rw [hpop] at hx2 hf2
  exact hq f s2 hf ht2 hx2 hf2 hu

/-- The fitness function does not return NaN for vectors of numbers (for no vector at all, if the arithmetic may overflow). -/
def NeverNan (Num : Prop) (P : AProb K) : Prop := ∀ h x f, (Num → AllFin x) → P.fit h x = .ok f → Fl.nan ∉ f

theorem wp_xnSampleAll {v : XnEnv K σ} {P : AProb K} (hP : FiniteBox P) (hnobj : P.info.nobj = 1) (hnc : P.info.nc = 0)
    {Num : Prop} (hnan : NeverNan Num P) (A : Xnes K) (b : XnVars K P.info.nx)
    (hn : Num → NoOverflow v.op ∧ (∃ a, v.op.zero = .fin a) ∧ VarsFin b) {s0 s : St K σ} {new : List (ECall K)}
    (ht : TrackedBy (XnBox Num A P) P s0 new s) (b' : XnVars K P.info.nx) :
    wp ((List.range s0.pop.id.length).foldlM (xnSample v P A b) []) (fun zs s' =>
      TrackedBy (XnBox Num A P) P s0 (new ++ asCalls (s'.pop.x.zip s'.pop.f)) s' ∧
      XnTurn v P A s0.pop.id.length (xnSt P b s) zs (xnSt P b' s')) (FailedBy (XnBox Num A P) P s0) s := by
  have hnf : P.info.nf = 1 := by simp only [Info.nf, Info.nc] at *; omega
  have hnx0 : 0 < P.info.nx := by rw [hP.nx]; exact List.length_pos_iff.mpr hP.bounds.nonempty
  refine (wp_range (fun i (zs : List (Vec K P.info.nx)) (s' : St K σ) => zs.length = i ∧ (∀ z ∈ zs, VecFin z) ∧
    TrackedBy (XnBox Num A P) P s0 (new ++ asCalls ((s'.pop.x.zip s'.pop.f).take i)) s' ∧
    ∀ j, j < i → ∃ z x f, zs[j]? = some z ∧ s'.pop.x[j]? = some x ∧ s'.pop.f[j]? = some f ∧ xnPoint v P A b z = .ok x ∧ Fl.nan ∉ f)
    s0.pop.id.length [] s ⟨rfl, by simp, by simpa [asCalls] using ht, by omega⟩ ?_).mono ?_ (fun _ _ h => h)
  · rintro i zs s1 hi ⟨hzl, hzf, ht1, hp⟩
    have hid := ht1.id
    have hxl := ht1.inv.wf.xs
    have hfl := ht1.inv.wf.fs
    unfold xnSample
    rw [wp_bind, wp_onRng]
    refine wp_drawVec v.d _ _ ?_
    intro z e hz
    obtain ⟨x, hx, hm⟩ := xnPoint_ok hP A b z hn hz
    rw [wp_bind, hx, wp_lift_ok, wp_bind]
    refine wp_xnSetX hnx0 (by omega) (tracked_rng ht1 e) (by simp only; rw [hid]; exact hi) hm.1 hm ?_ (fun _ _ h => h)
    intro f s2 hf ht2 hx2 hf2 hu
    simp only at hx2 hf2
    refine ⟨by simp [hzl], ?_, ?_, ?_⟩
    · intro w hw
      rcases List.mem_append.mp hw with hw | hw
      · exact hzf w hw
      · rw [List.mem_singleton.mp hw]; exact hz
    · rw [hx2, hf2, zip_take_set2 (by rw [hxl, hid]; exact hi) (by rw [hfl, hid]; exact hi)]
      simpa [asCalls] using ht2
    · intro j hj
      by_cases e : j = i
      · subst e
        obtain ⟨h, hu⟩ := hu
        refine ⟨z, x, f, by rw [← hzl, List.getElem?_concat_length], ?_, ?_, hx, hnan h x f hm.2.1 hu.symm⟩
        · rw [hx2, List.getElem?_set_self (by rw [hxl, hid]; exact hi)]
        · rw [hf2, List.getElem?_set_self (by rw [hfl, hid]; exact hi)]
      · obtain ⟨w, y, g, h1, h2, h3, h4⟩ := hp j (by omega)
        refine ⟨w, y, g, ?_, ?_, ?_, h4⟩
        · rw [List.getElem?_append_left (by omega)]; exact h1
        · rw [hx2, List.getElem?_set_ne (by omega)]; exact h2
        · rw [hf2, List.getElem?_set_ne (by omega)]; exact h3
  · rintro zs s1 ⟨hzl, hzf, ht1, hp⟩
    have hid := ht1.id
    have hxl := ht1.inv.wf.xs
    have hfl := ht1.inv.wf.fs
    have hl : (s1.pop.x.zip s1.pop.f).length = s0.pop.id.length := by
      rw [List.length_zip, hxl, hfl, hid, Nat.min_self]
    rw [← hl, List.take_length] at ht1
    refine ⟨ht1, hzl, by simp only [xnSt]; rw [hxl, hid], by simp only [xnSt]; rw [hfl, hid], hzf, ?_, ?_, ?_, ?_⟩
    · intro i z x h1 h2
      obtain ⟨w, y, g, e1, e2, e3, e4, _⟩ := hp i (by rw [← hzl]; exact (List.getElem?_eq_some_iff.mp h1).1)
      rw [e1, Option.some.injEq] at h1
      simp only [xnSt] at h2
      rw [e2, Option.some.injEq] at h2
      subst h1; subst h2
      exact e4
    · intro f hf; rw [← hnf]; exact ht1.inv.wf.dimF f hf
    · intro f hf
      obtain ⟨i, hi, rfl⟩ := List.getElem_of_mem hf
      simp only [xnSt] at hi
      obtain ⟨w, y, g, e1, e2, e3, _, e4⟩ := hp i (by rw [hfl, hid] at hi; exact hi)
      rw [List.getElem?_eq_getElem hi, Option.some.injEq] at e3
      simp only [xnSt]
      rw [e3]; exact e4
    · simp only [xnSt]
      rw [ht1.evs, ← List.append_assoc, ← ht.evs]

end

theorem xnCenter_fin {op : Fl.Ops K} (hop : NoOverflow op) {n : Nat} {l : List (Fl K × Vec K n)}
    (h : ∀ p ∈ l, (∃ a, p.1 = .fin a) ∧ VecFin p.2) : VecFin (xnCenter op l) := by
  have hm : ∀ p ∈ l, VecFin (fun i => op.mul p.1 (p.2 i)) := by
    intro p hp i
    obtain ⟨⟨a, ha⟩, hz⟩ := h p hp
    obtain ⟨b, hb⟩ := hz i
    dsimp only
    rw [ha, hb]; exact hop.mul a b
  cases l with
  | nil => intro i; exact ⟨_, rfl⟩
  | cons p ps =>
    unfold xnCenter
    have key : ∀ (ps : List (Fl K × Vec K n)) (c : Vec K n), (∀ q ∈ ps, VecFin (fun i => op.mul q.1 (q.2 i))) → VecFin c →
        VecFin (ps.foldl (fun c q i => op.add (c i) (op.mul q.1 (q.2 i))) c) := by
      intro ps
      induction ps with
      | nil => intro c _ hc; exact hc
      | cons q ps ih =>
        intro c hq hc
        rw [List.foldl_cons]
        refine ih _ (fun r hr => hq r (by simp [hr])) fun i => ?_
        obtain ⟨a, ha⟩ := hc i
        obtain ⟨b, hb⟩ := hq q (by simp) i
        dsimp only at hb ⊢
        rw [ha, hb]; exact hop.add a b
    exact key ps _ (fun q hq => hm q (by simp [hq])) (hm p (by simp))

theorem xnCov_fin {op : Fl.Ops K} (hop : NoOverflow op) {n : Nat} {l : List (Fl K × Vec K n)}
    (h : ∀ p ∈ l, (∃ a, p.1 = .fin a) ∧ VecFin p.2) : MatFin (xnCov op l) := by
  have hm : ∀ p ∈ l, MatFin (xnOuter op p) := by
    intro p hp i j
    obtain ⟨⟨a, ha⟩, hz⟩ := h p hp
    obtain ⟨b, hb⟩ := hz i
    obtain ⟨c, hc⟩ := hz j
    obtain ⟨d, hd⟩ := hop.mul b c
    obtain ⟨e, he⟩ := laId_fin (K := K) n i j
    obtain ⟨f, hf⟩ := hop.sub d e
    unfold xnOuter
    rw [ha, hb, hc, hd, he, hf]; exact hop.mul a f
  cases l with
  | nil => intro i j; exact ⟨_, rfl⟩
  | cons p ps =>
    unfold xnCov
    have key : ∀ (ps : List (Fl K × Vec K n)) (c : Mat K n), (∀ q ∈ ps, MatFin (xnOuter op q)) → MatFin c →
        MatFin (ps.foldl (fun c q i j => op.add (c i j) (xnOuter op q i j)) c) := by
      intro ps
      induction ps with
      | nil => intro c _ hc; exact hc
      | cons q ps ih =>
        intro c hq hc
        rw [List.foldl_cons]
        refine ih _ (fun r hr => hq r (by simp [hr])) fun i j => ?_
        obtain ⟨a, ha⟩ := hc i j
        obtain ⟨b, hb⟩ := hq q (by simp) i j
        rw [ha, hb]; exact hop.add a b
    exact key ps _ (fun q hq => hm q (by simp [hq])) (hm p (by simp))

theorem xnUpdate_fin {v : XnEnv K σ} {P : AProb K} {A : Xnes K} {lam : Nat} (hN : XnNum v P A lam) {b : XnVars K P.info.nx} (hb : VarsFin b)
    {l : List (Fl K × Vec K P.info.nx)} (h : ∀ p ∈ l, (∃ a, p.1 = .fin a) ∧ VecFin p.2) : VarsFin (xnUpdate v A b l) := by
  obtain ⟨mu, hmu⟩ := hN.mu
  obtain ⟨rs, hrs⟩ := hN.rateS
  obtain ⟨rb, hrb⟩ := hN.rateB
  have hcov := xnCov_fin hN.op h
  obtain ⟨tr, htr⟩ : ∃ a, laTrace v.op (xnCov v.op l) = .fin a := laSum_fin hN.op hN.zero (fun i => hcov i i)
  constructor
  · intro i
    obtain ⟨a, ha⟩ := hb.mean i
    obtain ⟨c, hc⟩ := laApply_fin hN.op hN.zero (A := fun i j => v.op.mul (xnMu A) (b.A i j)) (fun i j => by
      obtain ⟨q, hq⟩ := hb.A i j
      dsimp only
      rw [hmu, hq]; exact hN.op.mul mu q) (xnCenter_fin hN.op h) i
    unfold xnUpdate
    dsimp only
    rw [ha, hc]; exact hN.op.add a c
  · unfold xnUpdate
    dsimp only
    refine laMul_fin hN.op hN.zero hb.A (hN.mexp _ fun i j => ?_)
    obtain ⟨q, hq⟩ := hcov i j
    obtain ⟨t1, h1⟩ := hN.div tr
    obtain ⟨t2, h2⟩ := laId_fin (K := K) P.info.nx i j
    obtain ⟨t3, h3⟩ := hN.op.mul t1 t2
    obtain ⟨t4, h4⟩ := hN.op.sub q t3
    obtain ⟨t5, h5⟩ := hN.op.mul rb t4
    obtain ⟨t6, h6⟩ := hN.op.mul rs tr
    obtain ⟨t7, h7⟩ := hN.div t6
    obtain ⟨t8, h8⟩ := hN.op.mul t7 t2
    obtain ⟨t9, h9⟩ := hN.op.add t8 t5
    rw [htr, hrs, hrb, hq, h1, h2, h3, h4, h5, h6, h7, h8, h9]
    exact hN.op.mul _ _

theorem xnReset_ok {v : XnEnv K σ} {P : AProb K} (hP : FiniteBox P) (hnobj : P.info.nobj = 1) (hnc : P.info.nc = 0) (A : Xnes K)
    {p : Pop.State K} (hi : Inv P.info p) (hne : p.id ≠ []) (hsz : p.id.length ≤ 2 ^ 63) {lam : Nat} :
    ∃ b, xnReset v P A p = .ok b ∧ (XnNum v P A lam → (∀ x ∈ p.x, AllFin x) → VarsFin b) := by
  have hlu : P.ub.length = P.info.nx := by rw [← hP.bounds.len, hP.nx]
  have hfne : p.f ≠ [] := fun h => hne (List.length_eq_zero_iff.mp (by rw [← hi.wf.fs, h]; rfl))
  obtain ⟨i, e1, e2⟩ := (idx_lt (srt := v.srt) (sq := v.sq) hnobj hnc hfne (by rw [hi.wf.fs]; exact hsz) p.tol).1
  have hix : i < p.x.length := by rw [hi.wf.xs, ← hi.wf.fs]; exact e2
  have hxd := hi.wf.dimX _ (List.getElem_mem hix)
  unfold xnReset
  rw [vecOf_ok hP.nx.symm, Outcome.bind_ok, vecOf_ok hlu, Outcome.bind_ok, e1, Outcome.bind_ok, Outcome.get_of_lt hix, Outcome.bind_ok,
    vecOf_ok hxd, Outcome.bind_ok]
  refine ⟨_, rfl, fun hN hx => ⟨fun j => ?_, fun j k => ?_⟩⟩
  · exact hx _ (List.getElem_mem hix) _ (List.getElem_mem _)
  · dsimp only
    split
    · obtain ⟨a, ha⟩ := hP.finL _ (List.getElem_mem (show k.1 < P.lb.length by rw [← hP.nx]; exact k.2))
      obtain ⟨c, hc⟩ := hP.finU _ (List.getElem_mem (show k.1 < P.ub.length by rw [hlu]; exact k.2))
      obtain ⟨w, hw⟩ := hN.op.sub c a
      rw [hc, ha, hw]
      obtain ⟨s, hs⟩ : ∃ s, (if Fl.eq A.sigma0 (.fin (-1)) then .fin (1 / 2) else A.sigma0) = Fl.fin s := by
        split
        · exact ⟨_, rfl⟩
        · exact hN.sigma
      obtain ⟨w', hw'⟩ : ∃ w', Fl.stdMax (.fin w) (.fin (1 / 1000000)) = Fl.fin w' := by
        unfold Fl.stdMax; split <;> exact ⟨_, rfl⟩
      rw [hs, hw']; exact hN.op.mul _ _
    · exact ⟨_, rfl⟩

/-- the first generations of a run, `k` of them -/
structure XnMid (v : XnEnv K σ) (P : AProb K) (A : Xnes K) (Num : Prop) (b0 : XnVars K P.info.nx) (s0 : St K σ) (k : Nat) (b : XnVars K P.info.nx)
    (s : St K σ) : Prop where
  tr : ∃ new, TrackedBy (XnBox Num A P) P s0 new s ∧ new.length = k * s0.pop.id.length
  run : Steps (XnFull v P A s0.pop.id.length) k (xnSt P b0 s0) (xnSt P b s)
  fin : Num → VarsFin b

/-- a run that stopped early in generation `k` -/
structure XnEarly (v : XnEnv K σ) (P : AProb K) (A : Xnes K) (Num : Prop) (b0 : XnVars K P.info.nx) (s0 : St K σ) (k : Nat) (b : XnVars K P.info.nx)
    (s : St K σ) : Prop where
  tr : ∃ new, TrackedBy (XnBox Num A P) P s0 new s ∧ new.length = k * s0.pop.id.length
  run : ∃ m, Steps (XnFull v P A s0.pop.id.length) (k - 1) (xnSt P b0 s0) m ∧ XnLast v P A s0.pop.id.length m (xnSt P b s)
  fin : Num → VarsFin b

section
variable [IsStrictOrderedRing K]

theorem wp_xnGen {v : XnEnv K σ} {rep : K → Prop} (hg : v.g.Lawful rep) (hsrt : ValidSort v.srt) {P : AProb K} (hP : FiniteBox P)
    (hnobj : P.info.nobj = 1) (hnc : P.info.nc = 0) {Num : Prop} (hnan : NeverNan Num P) {A : Xnes K} {s0 : St K σ}
    (hN : Num → XnNum v P A s0.pop.id.length) (h0 : 0 < s0.pop.id.length) (hsz : s0.pop.id.length ≤ 2 ^ 63)
    {b0 b : XnVars K P.info.nx} {k g : Nat} {s : St K σ} (h : XnMid v P A Num b0 s0 k b s) :
    wp (xnGen v P A s0.pop.id.length g b) (fun r s' => (r.2 = false → XnMid v P A Num b0 s0 (k + 1) r.1 s') ∧
      (r.2 = true → XnEarly v P A Num b0 s0 (k + 1) r.1 s')) (FailedBy (XnBox Num A P) P s0) s := by
  obtain ⟨⟨new, ht, hl⟩, hrun, hfin⟩ := h
  unfold xnGen
  rw [wp_bind]
  refine wp_newSeed hg P ?_
  intro e
  rw [wp_bind]
  refine (wp_xnSampleAll hP hnobj hnc hnan A b (fun h => ⟨(hN h).op, (hN h).zero, hfin h⟩) (tracked_rng ht e) b).mono ?_ (fun _ _ h => h)
  rintro zs s1 ⟨ht1, hT⟩
  have hT' : XnTurn v P A s0.pop.id.length (xnSt P b s) zs (xnSt P b s1) := hT
  have hz0 : 0 < zs.length := by rw [hT.zl]; exact h0
  have hlen : (new ++ asCalls (s1.pop.x.zip s1.pop.f)).length = (k + 1) * s0.pop.id.length := by
    have h1 := hT.xl
    have h2 := hT.fl
    simp only [xnSt] at h1 h2
    simp only [List.length_append, hl, asCalls, List.length_map, List.length_zip, h1, h2, Nat.min_self]
    ring
  rw [wp_bind, wp_lift_get hz0]
  have early : XnEnd v A b zs s1.pop.f → XnEarly v P A Num b0 s0 (k + 1) b s1 := by
    intro he
    exact ⟨⟨_, ht1, hlen⟩, ⟨xnSt P b s, by simpa using hrun, zs, hT', he, rfl⟩, hfin⟩
  split
  · rename_i hx
    exact ⟨(fun h => by cases h), fun _ => early (Or.inl ⟨_, List.getElem?_eq_getElem hz0, hx⟩)⟩
  · rw [wp_bind, wp_get']
    have hfl := hT.fl
    simp only [xnSt] at hfl
    have hfne : s1.pop.f ≠ [] := fun h => by rw [h] at hfl; simp at hfl; omega
    obtain ⟨d, hd, hS⟩ := flatness_ok v.toEnv hnobj hnc (p := s1.pop) hT.f1 hfne (by rw [hfl]; exact hsz) hT.fnan
    rw [wp_bind, hd, wp_lift_ok]
    split
    · rename_i hx
      exact ⟨(fun h => by cases h), fun _ => early (Or.inr ⟨d, hS, hx⟩)⟩
    · have hsort := stdSort_sat hsrt (swo_xnLess hfl hT.f1 hT.fnan)
      obtain ⟨idx, hidx, hs⟩ := hsort
      rw [wp_bind, hidx, wp_lift_ok, wp_bind]
      have hlt : ∀ i ∈ idx, i < zs.length := by
        intro i hi
        rw [hT.zl]
        exact List.mem_range.mp (hs.perm.mem_iff.mp hi)
      rw [Outcome.mapM_ok (fun i => zs.getD i (fun _ => .fin 0)) idx (by
        intro i hi
        rw [Outcome.get_of_lt (hlt i hi), List.getD_eq_getElem _ _ (hlt i hi)]), wp_lift_ok]
      refine ⟨fun _ => ⟨⟨_, ht1, hlen⟩, Steps.snoc hrun ⟨zs, idx, ?_, hs, rfl⟩, fun h => ?_⟩, (fun h => by cases h)⟩
      · exact ⟨hT.zl, hT.xl, hT.fl, hT.zfin, hT.pts, hT.f1, hT.fnan, hT.ev⟩
      · refine xnUpdate_fin (hN h) (hfin h) ?_
        rintro ⟨u, z⟩ hp
        have hu := (List.of_mem_zip hp).1
        have hz := (List.of_mem_zip hp).2
        refine ⟨(hN h).util u hu, ?_⟩
        obtain ⟨i, hi, rfl⟩ := List.mem_map.mp hz
        rw [List.getD_eq_getElem _ _ (hlt i hi)]
        exact hT.zfin _ (List.getElem_mem _)

/-- A run: the distribution before, the generations, the last one. -/
def XnRan (v : XnEnv K σ) (P : AProb K) (A : Xnes K) (Num : Prop) (m : XnMem K) (s : St K σ) (m' : XnMem K) (s' : St K σ) : Prop :=
  ∃ b0 b : XnVars K P.info.nx, xnInit v P A s.pop m = .ok b0 ∧ m' = ⟨P.info.nx, b⟩ ∧
    (XnMid v P A Num b0 s A.gens b s' ∨ ∃ k ≤ A.gens, 0 < k ∧ XnEarly v P A Num b0 s k b s')

theorem xn_run {v : XnEnv K σ} {rep : K → Prop} (hg : v.g.Lawful rep) (hsrt : ValidSort v.srt) {P : AProb K} (hP : FiniteBox P)
    (hnobj : P.info.nobj = 1) (hnc : P.info.nc = 0) {Num : Prop} (hnan : NeverNan Num P) {A : Xnes K} (hgens : A.gens + 1 < 2 ^ 32) (hgens0 : A.gens ≠ 0)
    {s : St K σ} (hi : Inv P.info s.pop) (h4 : 4 ≤ s.pop.id.length) (hsz : s.pop.id.length ≤ 2 ^ 63)
    (hN : Num → XnNum v P A s.pop.id.length) (hx : Num → ∀ x ∈ s.pop.x, AllFin x) {m : XnMem K}
    (hm : Num → A.memory = true → m.n = P.info.nx → VarsFin m.vars) {fuel : Nat} (hfuel : A.gens < fuel) :
    wp (xnEvolve v P A fuel m) (fun m' s' => XnRan v P A Num m s m' s') (FailedBy (XnBox Num A P) P s) s := by
  have hnf : P.info.nf = 1 := by simp only [Info.nf, Info.nc] at *; omega
  have hfinL : P.lb.any (fun a => !a.isFinite) = false := by
    rw [List.any_eq_false]
    intro a ha
    obtain ⟨c, rfl⟩ := hP.finL a ha
    simp [Fl.isFinite]
  have hfinU : P.ub.any (fun a => !a.isFinite) = false := by
    rw [List.any_eq_false]
    intro a ha
    obtain ⟨c, rfl⟩ := hP.finU a ha
    simp [Fl.isFinite]
  have hinit : ∃ b0, xnInit v P A s.pop m = .ok b0 ∧ (Num → VarsFin b0) := by
    obtain ⟨b, hb, hb'⟩ := xnReset_ok (v := v) hP hnobj hnc A hi (fun h => by rw [h] at h4; simp at h4) hsz (lam := s.pop.id.length)
    unfold xnInit
    split
    · rename_i h
      split
      · exact ⟨b, hb, fun hn => hb' (hN hn) (hx hn)⟩
      · rename_i hmem
        refine ⟨_, rfl, fun hn => ?_⟩
        have := hm hn (by simpa using hmem) h
        obtain ⟨n, vars⟩ := m
        dsimp only at h this ⊢
        subst h
        exact this
    · exact ⟨b, hb, fun hn => hb' (hN hn) (hx hn)⟩
  obtain ⟨b0, hb0, hfin0⟩ := hinit
  unfold xnEvolve
  rw [wp_bind, wp_get, if_neg (by omega), if_neg (by omega), if_neg (by omega), hfinL, if_neg (by simp), hfinU, if_neg (by simp),
    if_neg hgens0, wp_bind, hb0, wp_lift_ok, wp_bind]
  refine (wp_genLoop_stop hgens (XnMid v P A Num b0 s) (XnEarly v P A Num b0 s) ?_ fuel 0 b0 s (by omega) (by omega) ?_).mono ?_ (fun _ _ h => h)
  · intro k b s1 _ h
    exact wp_xnGen hg hsrt hP hnobj hnc hnan hN (by omega) hsz h
  · exact ⟨⟨[], tracked_refl hi, by simp⟩, .refl _, hfin0⟩
  · rintro b s1 h
    exact ⟨b0, b, hb0, rfl, h⟩

end

end Verif.Props
