import Verif.Props.PsoTopology
import Verif.Props.Bee
import Mathlib.Data.List.GetD

/-!
# Lemmas about `pso`: the move of a particle
-/

set_option autoImplicit false

namespace Verif.Props

open Verif Run Prob Pop Alg Rnd

variable {K σ : Type} [Field K] [LinearOrder K]

/-- component `d` of a vector -/
abbrev comp (x : List (Fl K)) (d : Nat) : Fl K := x.getD d .nan

omit [Field K] [LinearOrder K] in
theorem get_comp {x : List (Fl K)} {d : Nat} (h : d < x.length) : Outcome.get x d = .ok (comp x d) := by
  rw [Outcome.get_of_lt h, comp, List.getD_eq_getElem _ _ h]

omit [Field K] [LinearOrder K] in
theorem comp_set {x : List (Fl K)} {d : Nat} (h : d < x.length) (a : Fl K) (e : Nat) :
    comp (x.set d a) e = if e = d then a else comp x e := by
  unfold comp
  rw [List.getD_eq_getElem?_getD, List.getElem?_set, List.getD_eq_getElem?_getD]
  by_cases he : d = e
  · subst he; simp [h]
  · rw [if_neg he, if_neg (fun h => he h.symm)]

omit [LinearOrder K] in
theorem comp_fin {x : List (Fl K)} (hx : AllFin x) {d : Nat} (h : d < x.length) : ∃ a : K, comp x d = .fin a := by
  obtain ⟨a, ha⟩ := hx _ (List.getElem_mem h)
  exact ⟨a, by rw [comp, List.getD_eq_getElem _ _ h, ha]⟩

omit [LinearOrder K] in
theorem allFin_of_comp {x : List (Fl K)} (h : ∀ d, d < x.length → ∃ a : K, comp x d = .fin a) : AllFin x := by
  intro w hw
  obtain ⟨i, hi, rfl⟩ := List.getElem_of_mem hw
  obtain ⟨a, ha⟩ := h i hi
  exact ⟨a, by rw [← ha, comp, List.getD_eq_getElem _ _ hi]⟩

/-- What is used of the arithmetic: no overflow, and rounding keeps the sign of differences and products. -/
structure PsoOps (v : Env K σ) : Prop where
  no : NoOverflow v.op
  zero : v.op.zero = .fin 0
  sub : ∀ a b : K, a ≤ b → ∃ c : K, 0 ≤ c ∧ v.op.sub (.fin b) (.fin a) = .fin c
  mul : ∀ a b : K, 0 ≤ a → 0 ≤ b → ∃ c : K, 0 ≤ c ∧ v.op.mul (.fin a) (.fin b) = .fin c
  neg : ∀ a : K, 0 ≤ a → ∃ c : K, c ≤ 0 ∧ v.op.mul (.fin (-1)) (.fin a) = .fin c
  /-- only for the fully informed variant: division by the number of neighbours -/
  div : ∀ (a : K) (k : Nat), 0 < k → ∃ c : K, v.op.div (.fin a) (.fin (v.g.ofInt k)) = .fin c

/-- The parameters: accepted by the constructor, none of them NaN. -/
structure PsoPars (A : Pso K) : Prop where
  omega : ∃ a : K, A.omega = .fin a
  eta1 : ∃ a : K, A.eta1 = .fin a
  eta2 : ∃ a : K, A.eta2 = .fin a
  maxVel : ∃ a : K, 0 ≤ a ∧ A.maxVel = .fin a
  param : 1 ≤ A.param

/-- the largest velocity of component `d` -/
def speed (op : Fl.Ops K) (P : AProb K) (A : Pso K) (d : Nat) : Fl K := op.mul (op.sub (comp P.ub d) (comp P.lb d)) A.maxVel

omit [LinearOrder K] in
theorem comp_maxv {op : Fl.Ops K} {P : AProb K} {A : Pso K} {d : Nat} (h1 : d < P.lb.length) (h2 : d < P.ub.length) :
    d < (psoMaxv op P A).length ∧ comp (psoMaxv op P A) d = speed op P A d ∧
    d < (psoMinv op P A).length ∧ comp (psoMinv op P A) d = op.mul (.fin (-1)) (speed op P A d) := by
  have l1 : d < (psoMaxv op P A).length := by simp [psoMaxv]; omega
  have l2 : d < (psoMinv op P A).length := by simp [psoMinv]; omega
  refine ⟨l1, ?_, l2, ?_⟩
  · unfold speed
    rw [comp, comp, comp, List.getD_eq_getElem _ _ l1, List.getD_eq_getElem _ _ h1, List.getD_eq_getElem _ _ h2]
    simp [psoMaxv, psoWidth]
  · unfold speed
    rw [comp, comp, comp, List.getD_eq_getElem _ _ l2, List.getD_eq_getElem _ _ h1, List.getD_eq_getElem _ _ h2]
    simp [psoMinv, psoWidth]

theorem box_comp {P : AProb K} (hP : FiniteBox P) {d : Nat} (h : d < P.info.nx) :
    d < P.lb.length ∧ d < P.ub.length ∧ ∃ l u : K, comp P.lb d = .fin l ∧ comp P.ub d = .fin u ∧ l ≤ u := by
  have h1 : d < P.lb.length := by rw [← hP.nx]; exact h
  have h2 : d < P.ub.length := by rw [← hP.bounds.len]; exact h1
  obtain ⟨l, hl⟩ := comp_fin hP.finL h1
  obtain ⟨u, hu⟩ := comp_fin hP.finU h2
  refine ⟨h1, h2, l, u, hl, hu, ?_⟩
  have e1 : P.lb[d]? = some (.fin l) := by
    rw [← hl, comp, List.getD_eq_getElem _ _ h1]; exact List.getElem?_eq_getElem h1
  have e2 : P.ub[d]? = some (.fin u) := by
    rw [← hu, comp, List.getD_eq_getElem _ _ h2]; exact List.getElem?_eq_getElem h2
  have := (hP.bounds.ordered d _ _ e1 e2).2.2
  simpa using this

theorem speed_fin {v : Env K σ} (hop : PsoOps v) {P : AProb K} (hP : FiniteBox P) {A : Pso K} (hA : PsoPars A) {d : Nat} (h : d < P.info.nx) :
    ∃ w m : K, 0 ≤ w ∧ m ≤ 0 ∧ speed v.op P A d = .fin w ∧ v.op.mul (.fin (-1)) (speed v.op P A d) = .fin m := by
  obtain ⟨_, _, l, u, hl, hu, hlu⟩ := box_comp hP h
  obtain ⟨m, hm0, hm⟩ := hA.maxVel
  obtain ⟨c, hc0, hc⟩ := hop.sub l u hlu
  obtain ⟨w, hw0, hw⟩ := hop.mul c m hc0 hm0
  have e : speed v.op P A d = .fin w := by unfold speed; rw [hl, hu, hm, hc, hw]
  obtain ⟨z, hz0, hz⟩ := hop.neg w hw0
  exact ⟨w, z, hw0, hz0, e, by rw [e, hz]⟩

/-! ### The velocity -/

/-- The velocity of the variants 1 to 4 -/
def inertial (op : Fl.Ops K) (A : Pso K) (r1 r2 w l x b : Fl K) : Fl K :=
  op.add (op.add (op.mul A.omega w) (op.mul (op.mul A.eta1 r1) (op.sub l x))) (op.mul (op.mul A.eta2 r2) (op.sub b x))

/-- The velocity of variant 5 -/
def constricted (op : Fl.Ops K) (A : Pso K) (r1 r2 w l x b : Fl K) : Fl K :=
  op.mul A.omega (op.add (op.add w (op.mul (op.mul A.eta1 r1) (op.sub l x))) (op.mul (op.mul A.eta2 r2) (op.sub b x)))

/-- The velocity `u` after `w` of a particle at `x` with the own best `l`, attracted by `b`. The random numbers: the same
for all components in the variants 3 and 4, the same for both attractions in the variants 2 and 4. -/
def Pulled (op : Fl.Ops K) (A : Pso K) (n : Nat) (l x b w u : List (Fl K)) : Prop :=
  u.length = n ∧ ∃ r1 r2 : Nat → K, (∀ d, 0 ≤ r1 d ∧ r1 d ≤ 1 ∧ 0 ≤ r2 d ∧ r2 d ≤ 1) ∧
    (A.variant = 2 ∨ A.variant = 4 → ∀ d, r2 d = r1 d) ∧ (A.variant = 3 ∨ A.variant = 4 → ∀ d, r1 d = r1 0 ∧ r2 d = r2 0) ∧
    ∀ d, d < n → comp u d = (if A.variant = 5 then constricted else inertial) op A (.fin (r1 d)) (.fin (r2 d)) (comp w d) (comp l d) (comp x d) (comp b d)

/-- The sum of the attractions by all neighbours -/
def forces (op : Fl.Ops K) (A : Pso K) (lbX : List (List (Fl K))) (xd : Fl K) (d : Nat) (r : Nat → K) : List Nat → Nat → Fl K → Fl K
  | [], _, acc => acc
  | q :: l, k, acc => forces op A lbX xd d r l (k + 1)
      (op.add acc (op.mul (op.mul (.fin (r k)) (op.add A.eta1 A.eta2)) (op.sub (comp (lbX.getD q []) d) xd)))

/-- The velocity of variant 6: the mean of the attractions by the bests of all neighbours, with a random number for each
neighbour and component. -/
def PulledByAll (v : Env K σ) (A : Pso K) (n : Nat) (nbp : List Nat) (lbX : List (List (Fl K))) (x w u : List (Fl K)) : Prop :=
  u.length = n ∧ ∃ r : Nat → Nat → K, (∀ d k, 0 ≤ r d k ∧ r d k ≤ 1) ∧
    ∀ d, d < n → comp u d = v.op.mul A.omega (v.op.add (comp w d)
      (v.op.div (forces v.op A lbX (comp x d) d (r d) nbp 0 (.fin 0)) (.fin (v.g.ofInt nbp.length))))

/-- vectors of numbers, one for each particle -/
structure Vecs (n m : Nat) (xs : List (List (Fl K))) : Prop where
  len : xs.length = n
  dim : ∀ x ∈ xs, x.length = m
  fin : ∀ x ∈ xs, AllFin x

omit [LinearOrder K] in
theorem Vecs.set {n m : Nat} {xs : List (List (Fl K))} (h : Vecs n m xs) {i : Nat} {x : List (Fl K)} (h1 : x.length = m) (h2 : AllFin x) :
    Vecs n m (xs.set i x) := by
  refine ⟨by simp [h.len], fun y hy => ?_, fun y hy => ?_⟩
  · rcases List.mem_or_eq_of_mem_set hy with hy | rfl
    · exact h.dim y hy
    · exact h1
  · rcases List.mem_or_eq_of_mem_set hy with hy | rfl
    · exact h.fin y hy
    · exact h2

section
variable [IsStrictOrderedRing K]

theorem formula_fin {op : Fl.Ops K} (hop : NoOverflow op) {A : Pso K} (hA : PsoPars A) (r1 r2 w l x b : K) :
    ∃ c : K, psoFormula op A (.fin r1) (.fin r2) (.fin w) (.fin l) (.fin x) (.fin b) = .fin c := by
  obtain ⟨o, ho⟩ := hA.omega
  obtain ⟨e1, he1⟩ := hA.eta1
  obtain ⟨e2, he2⟩ := hA.eta2
  obtain ⟨d1, hd1⟩ := hop.sub l x
  obtain ⟨d2, hd2⟩ := hop.sub b x
  obtain ⟨m1, hm1⟩ := hop.mul e1 r1
  obtain ⟨m2, hm2⟩ := hop.mul e2 r2
  obtain ⟨n1, hn1⟩ := hop.mul m1 d1
  obtain ⟨n2, hn2⟩ := hop.mul m2 d2
  unfold psoFormula
  split
  · obtain ⟨s1, hs1⟩ := hop.add w n1
    obtain ⟨s2, hs2⟩ := hop.add s1 n2
    obtain ⟨t, ht⟩ := hop.mul o s2
    exact ⟨t, by rw [ho, he1, he2, hd1, hd2, hm1, hm2, hn1, hn2, hs1, hs2, ht]⟩
  · obtain ⟨t, ht⟩ := hop.mul o w
    obtain ⟨s1, hs1⟩ := hop.add t n1
    obtain ⟨s2, hs2⟩ := hop.add s1 n2
    exact ⟨s2, by rw [ho, he1, he2, hd1, hd2, hm1, hm2, hn1, hn2, ht, hs1, hs2]⟩

theorem formula_eq (op : Fl.Ops K) (A : Pso K) : psoFormula op A = (if A.variant = 5 then constricted else inertial) op A := by
  funext r1 r2 w l x b
  unfold psoFormula
  split <;> rfl

/-- one component of the velocity; `w0` is the velocity before the loop -/
theorem velAt_ok {op : Fl.Ops K} {A : Pso K} {n : Nat} {l x b w : List (Fl K)} {r : Fl K × Fl K} {d : Nat} (hd : d < n)
    (hl : l.length = n) (hx : x.length = n) (hb : b.length = n) (hw : w.length = n) :
    psoVelAt op A l x b r w d = .ok (w.set d (psoFormula op A r.1 r.2 (comp w d) (comp l d) (comp x d) (comp b d))) := by
  unfold psoVelAt
  rw [get_comp (by omega), Outcome.bind_ok, get_comp (by omega), Outcome.bind_ok, get_comp (by omega), Outcome.bind_ok,
    get_comp (by omega), Outcome.bind_ok, Outcome.set_of_lt (by omega)]

theorem wp_psoPair {g : Gen K σ} {rep : K → Prop} (hg : g.Lawful rep) {variant : Nat} {s : σ} {Q : Fl K × Fl K → σ → Prop} {E : Exn → σ → Prop}
    (h : ∀ r1 r2 s', 0 ≤ r1 → r1 ≤ 1 → 0 ≤ r2 → r2 ≤ 1 → (variant = 2 ∨ variant = 4 → r2 = r1) → Q (.fin r1, .fin r2) s') :
    wp (psoPair g variant) Q E s := by
  unfold psoPair
  rw [wp_bind]
  refine Gen.wp_draw01 hg (fun r1 s1 h1 h2 => ?_)
  split
  · rw [wp_pure]; exact h r1 r1 s1 h1 h2 h1 h2 (fun _ => rfl)
  · rename_i hv
    rw [wp_bind]
    refine Gen.wp_draw01 hg (fun r2 s2 h3 h4 => ?_)
    rw [wp_pure]; exact h r1 r2 s2 h1 h2 h3 h4 (fun h => absurd h hv)

theorem wp_psoForces {v : Env K σ} {rep : K → Prop} (hg : v.g.Lawful rep) (hop : NoOverflow v.op) {A : Pso K} (hA : PsoPars A)
    {n m : Nat} {lbX : List (List (Fl K))} (hX : Vecs n m lbX) {xd : K} {d : Nat} (hd : d < m) {E : Exn → σ → Prop} :
    ∀ (l : List Nat) (_ : ∀ q ∈ l, q < n) (k : Nat) (acc : K) (s : σ),
    wp (l.foldlM (psoForce v A lbX (.fin xd) d) (.fin acc)) (fun z _ => (∃ c : K, z = .fin c) ∧
      ∃ r : Nat → K, (∀ k, 0 ≤ r k ∧ r k ≤ 1) ∧ z = forces v.op A lbX (.fin xd) d r l k (.fin acc)) E s := by
  intro l
  induction l with
  | nil =>
    intro _ k acc s
    exact ⟨⟨acc, rfl⟩, fun _ => 0, fun _ => ⟨le_rfl, zero_le_one⟩, rfl⟩
  | cons q l ih =>
    intro hl k acc s
    rw [List.foldlM_cons, wp_bind]
    unfold psoForce
    rw [wp_bind]
    refine Gen.wp_draw01 hg (fun r0 s1 h0 h1 => ?_)
    have hq : q < lbX.length := by rw [hX.len]; exact hl q (by simp)
    rw [wp_bind, wp_lift_get hq, wp_bind, get_comp (by rw [hX.dim _ (List.getElem_mem hq)]; exact hd), wp_lift_ok, wp_pure]
    obtain ⟨e1, he1⟩ := hA.eta1
    obtain ⟨e2, he2⟩ := hA.eta2
    obtain ⟨a, ha⟩ := comp_fin (hX.fin _ (List.getElem_mem hq)) (d := d) (by rw [hX.dim _ (List.getElem_mem hq)]; exact hd)
    obtain ⟨d1, hd1⟩ := hop.sub a xd
    obtain ⟨s1', hs1⟩ := hop.add e1 e2
    obtain ⟨m1, hm1⟩ := hop.mul r0 s1'
    obtain ⟨m2, hm2⟩ := hop.mul m1 d1
    obtain ⟨t, ht⟩ := hop.add acc m2
    have e : v.op.add (.fin acc) (v.op.mul (v.op.mul (.fin r0) (v.op.add A.eta1 A.eta2)) (v.op.sub (comp lbX[q] d) (.fin xd))) = .fin t := by
      rw [ha, he1, he2, hs1, hm1, hd1, hm2, ht]
    rw [e]
    refine (ih (fun q' h => hl q' (by simp [h])) (k + 1) t s1).mono ?_ (fun _ _ h => h)
    rintro z s2 ⟨hz, r, hr, hzr⟩
    refine ⟨hz, Function.update r k r0, ?_, ?_⟩
    · intro k'
      by_cases h : k' = k
      · subst h; simp only [Function.update_self]; exact ⟨h0, h1⟩
      · rw [Function.update_of_ne h]; exact hr k'
    · rw [forces, Function.update_self, List.getD_eq_getElem _ _ hq, e, hzr]
      have : ∀ (l : List Nat) (j : Nat) (a : Fl K), k < j →
          forces v.op A lbX (.fin xd) d r l j a = forces v.op A lbX (.fin xd) d (Function.update r k r0) l j a := by
        intro l
        induction l with
        | nil => intro j a _; rfl
        | cons q l ih' =>
          intro j a hj
          rw [forces, forces, Function.update_of_ne (by omega)]
          exact ih' (j + 1) _ (by omega)
      exact this l (k + 1) _ (by omega)

/-- The loop over the components, when the body sets component `d` to a finite number. -/
theorem wp_comps {n : Nat} {w : List (Fl K)} (hw : w.length = n) {body : List (Fl K) → Nat → Run σ (List (Fl K))} {E : Exn → σ → Prop}
    {ρ : Type} (r0 : ρ) (val : ρ → Nat → Fl K)
    (hb : ∀ (d : Nat) (z : List (Fl K)) (s : σ), d < n → z.length = n → comp z d = comp w d →
      wp (body z d) (fun z' _ => ∃ r : ρ, (∃ c : K, val r d = .fin c) ∧ z' = z.set d (val r d)) E s) (s : σ) :
    wp ((List.range n).foldlM body w) (fun u _ => u.length = n ∧ AllFin u ∧ ∃ r : Nat → ρ, ∀ d, d < n → comp u d = val (r d) d) E s := by
  refine (wp_range (E := E) (fun i z _ => z.length = n ∧ (∀ d, d < i → ∃ c : K, comp z d = .fin c) ∧
    (∀ d, i ≤ d → comp z d = comp w d) ∧ ∃ r : Nat → ρ, ∀ d, d < i → comp z d = val (r d) d) n w s ?_ ?_).mono ?_ (fun _ _ h => h)
  · exact ⟨hw, fun d h => by omega, fun _ _ => rfl, fun _ => r0, fun d h => by omega⟩
  · rintro i z s hi ⟨h1, h2, h3, r, h4⟩
    refine (hb i z s hi h1 (h3 i le_rfl)).mono ?_ (fun _ _ h => h)
    rintro z' s' ⟨r', ⟨c, hc⟩, rfl⟩
    refine ⟨by simp [h1], ?_, ?_, Function.update r i r', ?_⟩
    · intro d hd
      rw [comp_set (by omega)]
      split
      · exact ⟨c, hc⟩
      · exact h2 d (by omega)
    · intro d hd
      rw [comp_set (by omega), if_neg (by omega)]; exact h3 d (by omega)
    · intro d hd
      rw [comp_set (by omega)]
      split
      · rename_i e; subst e; rw [Function.update_self]
      · rename_i e; rw [Function.update_of_ne e]; exact h4 d (by omega)
  · rintro u s ⟨h1, h2, _, h4⟩
    exact ⟨h1, allFin_of_comp (fun d hd => h2 d (by omega)), h4⟩

theorem wp_psoVel {v : Env K σ} {rep : K → Prop} (hg : v.g.Lawful rep) (hop : PsoOps v) {P : AProb K} {A : Pso K} (hA : PsoPars A)
    {n : Nat} {nbp : List Nat} {lbX : List (List (Fl K))} {lbx x b w : List (Fl K)} (hX : Vecs n P.info.nx lbX)
    (hnb : ∀ q ∈ nbp, q < n) (hne : A.variant = 6 → nbp ≠ []) (hl : lbx.length = P.info.nx) (hlf : AllFin lbx)
    (hx : x.length = P.info.nx) (hxf : AllFin x) (hb : A.variant ≠ 6 → b.length = P.info.nx ∧ AllFin b)
    (hw : w.length = P.info.nx) (hwf : AllFin w) {E : Exn → σ → Prop} (s : σ) :
    wp (psoVel v P A nbp lbX lbx x b w) (fun u _ => u.length = P.info.nx ∧ AllFin u ∧
      (A.variant ≠ 6 → Pulled v.op A P.info.nx lbx x b w u) ∧
      (A.variant = 6 → PulledByAll v A P.info.nx nbp lbX x w u)) E s := by
  unfold psoVel
  by_cases h6 : A.variant = 6
  · rw [if_pos h6]
    have := wp_comps (σ := σ) (E := E) hw (body := psoFips v A nbp lbX x) (ρ := { r : Nat → K // ∀ k, 0 ≤ r k ∧ r k ≤ 1 })
      ⟨fun _ => 0, fun _ => ⟨le_rfl, zero_le_one⟩⟩
      (fun r d => v.op.mul A.omega (v.op.add (comp w d)
        (v.op.div (forces v.op A lbX (comp x d) d r.1 nbp 0 (.fin 0)) (.fin (v.g.ofInt nbp.length))))) ?_ s
    · refine this.mono ?_ (fun _ _ h => h)
      rintro u s' ⟨h1, h2, r, h3⟩
      exact ⟨h1, h2, fun h => absurd h6 h, fun _ => ⟨h1, fun d => (r d).1, fun d => (r d).2, h3⟩⟩
    · intro d z s' hd hz hzw
      unfold psoFips
      obtain ⟨xd, hxd⟩ := comp_fin hxf (d := d) (by omega)
      obtain ⟨wd, hwd⟩ := comp_fin hwf (d := d) (by omega)
      rw [wp_bind, get_comp (by omega), wp_lift_ok, hop.zero, hxd, wp_bind]
      refine (wp_psoForces hg hop.no hA hX hd nbp hnb 0 0 s').mono ?_ (fun _ _ h => h)
      rintro sum s1 ⟨⟨c, rfl⟩, r, hr, hc⟩
      rw [wp_bind, get_comp (by omega), wp_lift_ok, wp_lift_set (by omega)]
      obtain ⟨q, hq⟩ := hop.div c nbp.length (List.length_pos_iff.mpr (hne h6))
      obtain ⟨t, ht⟩ := hop.no.add wd q
      obtain ⟨o, ho⟩ := hA.omega
      obtain ⟨y, hy⟩ := hop.no.mul o t
      refine ⟨⟨r, hr⟩, ⟨y, ?_⟩, ?_⟩
      · rw [hwd, ← hc, hq, ht, ho, hy]
      · rw [hzw, ← hc]
  · rw [if_neg h6]
    obtain ⟨hbl, hbf⟩ := hb h6
    by_cases h34 : A.variant = 3 ∨ A.variant = 4
    · rw [if_pos h34, wp_bind]
      refine wp_psoPair hg (fun r1 r2 s1 a1 a2 b1 b2 hsame => ?_)
      have key : ((List.range P.info.nx).foldlM (psoVelAt v.op A lbx x b (.fin r1, .fin r2)) w).Sat (fun u => u.length = P.info.nx ∧
          (∀ d, P.info.nx ≤ d → comp u d = comp w d) ∧
          ∀ d, d < P.info.nx → comp u d = psoFormula v.op A (.fin r1) (.fin r2) (comp w d) (comp lbx d) (comp x d) (comp b d)) := by
        refine Outcome.range_sat (fun i u => u.length = P.info.nx ∧ (∀ d, i ≤ d → comp u d = comp w d) ∧
          ∀ d, d < i → comp u d = psoFormula v.op A (.fin r1) (.fin r2) (comp w d) (comp lbx d) (comp x d) (comp b d)) _ _
          ⟨hw, fun _ _ => rfl, fun d h => by omega⟩ ?_
        rintro i u hi ⟨g1, g2, g3⟩
        rw [velAt_ok hi hl hx hbl g1, Outcome.sat_ok]
        refine ⟨by simp [g1], fun d hd => ?_, fun d hd => ?_⟩
        · rw [comp_set (by omega), if_neg (by omega)]; exact g2 d (by omega)
        · rw [comp_set (by omega)]
          split
          · rename_i e; subst e; rw [g2 d le_rfl]
          · exact g3 d (by omega)
      obtain ⟨u, hu, g1, _, g3⟩ := key
      rw [hu, wp_lift_ok]
      refine ⟨g1, ?_, fun _ => ⟨g1, fun _ => r1, fun _ => r2, fun _ => ⟨a1, a2, b1, b2⟩, fun h _ => hsame h, fun _ _ => ⟨rfl, rfl⟩, ?_⟩,
        fun h => absurd h h6⟩
      · refine allFin_of_comp (fun d hd => ?_)
        rw [g3 d (by omega)]
        obtain ⟨_, e1⟩ := comp_fin hwf (d := d) (by omega)
        obtain ⟨_, e2⟩ := comp_fin hlf (d := d) (by omega)
        obtain ⟨_, e3⟩ := comp_fin hxf (d := d) (by omega)
        obtain ⟨_, e4⟩ := comp_fin hbf (d := d) (by omega)
        rw [e1, e2, e3, e4]
        exact formula_fin hop.no hA _ _ _ _ _ _
      · intro d hd
        rw [g3 d hd, formula_eq]
    · rw [if_neg h34]
      have := wp_comps (σ := σ) (E := E) hw (body := psoVelOwn v A lbx x b)
        (ρ := { r : K × K // 0 ≤ r.1 ∧ r.1 ≤ 1 ∧ 0 ≤ r.2 ∧ r.2 ≤ 1 ∧ (A.variant = 2 ∨ A.variant = 4 → r.2 = r.1) })
        ⟨(0, 0), le_rfl, zero_le_one, le_rfl, zero_le_one, fun _ => rfl⟩
        (fun r d => psoFormula v.op A (.fin r.1.1) (.fin r.1.2) (comp w d) (comp lbx d) (comp x d) (comp b d)) ?_ s
      · refine this.mono ?_ (fun _ _ h => h)
        rintro u s' ⟨h1, h2, r, h3⟩
        refine ⟨h1, h2, fun _ => ⟨h1, fun d => (r d).1.1, fun d => (r d).1.2,
          fun d => ⟨(r d).2.1, (r d).2.2.1, (r d).2.2.2.1, (r d).2.2.2.2.1⟩, fun h d => (r d).2.2.2.2.2 h, fun h => absurd h h34, fun d hd => ?_⟩,
          fun h => absurd h h6⟩
        rw [h3 d hd, formula_eq]
      · intro d z s' hd hz hzw
        unfold psoVelOwn
        rw [wp_bind]
        refine wp_psoPair hg (fun r1 r2 s1 a1 a2 b1 b2 hsame => ?_)
        rw [velAt_ok hd hl hx hbl hz, wp_lift_ok]
        obtain ⟨_, e1⟩ := comp_fin hwf (d := d) (by omega)
        obtain ⟨_, e2⟩ := comp_fin hlf (d := d) (by omega)
        obtain ⟨_, e3⟩ := comp_fin hxf (d := d) (by omega)
        obtain ⟨_, e4⟩ := comp_fin hbf (d := d) (by omega)
        refine ⟨⟨(r1, r2), a1, a2, b1, b2, hsame⟩, ?_, ?_⟩
        · rw [e1, e2, e3, e4]
          exact formula_fin hop.no hA _ _ _ _ _ _
        · rw [hzw]

/-! ### The position -/

/-- From `x` with the velocity `u`: the velocity is limited in every component, and the point reached is moved to the
bound it has passed, with the velocity zero. The result: the position `y` and the velocity `w`. -/
def Flown (op : Fl.Ops K) (P : AProb K) (A : Pso K) (x u y w : List (Fl K)) : Prop :=
  y.length = P.info.nx ∧ w.length = P.info.nx ∧ ∀ d, d < P.info.nx → ∃ z : Fl K,
    z = max (op.mul (.fin (-1)) (speed op P A d)) (min (speed op P A d) (comp u d)) ∧
    comp y d = max (comp P.lb d) (min (comp P.ub d) (op.add (comp x d) z)) ∧
    comp w d = if op.add (comp x d) z < comp P.lb d ∨ comp P.ub d < op.add (comp x d) z then .fin 0 else z

omit [Field K] [IsStrictOrderedRing K] in
theorem limit_eq {lo hi w : K} (h : lo ≤ hi) : psoLimit (.fin lo) (.fin hi) (.fin w) = max (.fin lo) (min (.fin hi) (.fin w)) := by
  unfold psoLimit
  simp only [Fl.gt, Fl.lt_iff (show (Fl.fin hi : Fl K) ≠ .nan by simp) (show (Fl.fin w : Fl K) ≠ .nan by simp),
    Fl.lt_iff (show (Fl.fin w : Fl K) ≠ .nan by simp) (show (Fl.fin lo : Fl K) ≠ .nan by simp)]
  have hlo : (Fl.fin lo : Fl K) ≤ .fin hi := by simpa using h
  by_cases h1 : (Fl.fin hi : Fl K) < .fin w
  · rw [if_pos h1, min_eq_left h1.le, max_eq_right hlo]
  · rw [if_neg h1, min_eq_right (not_lt.mp h1)]
    by_cases h2 : (Fl.fin w : Fl K) < .fin lo
    · rw [if_pos h2, max_eq_left h2.le]
    · rw [if_neg h2, max_eq_right (not_lt.mp h2)]

omit [Field K] [IsStrictOrderedRing K] in
theorem max_min_fin (lo hi w : K) : ∃ z : K, max (Fl.fin lo) (min (.fin hi) (.fin w)) = .fin z := by
  rcases min_choice (Fl.fin hi) (Fl.fin w) with h | h <;> rw [h]
  · rcases max_choice (Fl.fin lo) (Fl.fin hi) with h | h <;> exact ⟨_, h⟩
  · rcases max_choice (Fl.fin lo) (Fl.fin w) with h | h <;> exact ⟨_, h⟩

theorem fly_ok {v : Env K σ} (hop : PsoOps v) {P : AProb K} (hP : FiniteBox P) {A : Pso K} (hA : PsoPars A) {x u : List (Fl K)}
    (hx : x.length = P.info.nx) (hxf : AllFin x) (hu : u.length = P.info.nx) (huf : AllFin u) :
    ((List.range P.info.nx).foldlM (psoMoveAt v.op P A) (x, u)).Sat (fun r => InBox P.lb P.ub 0 r.1 ∧ AllFin r.2 ∧ Flown v.op P A x u r.1 r.2) := by
  have key := Outcome.range_sat (f := psoMoveAt v.op P A) (fun i r => r.1.length = P.info.nx ∧ r.2.length = P.info.nx ∧
    (∀ d, i ≤ d → comp r.1 d = comp x d ∧ comp r.2 d = comp u d) ∧
    ∀ d, d < i → (∃ c : K, comp r.2 d = .fin c) ∧ ∃ z : Fl K,
      z = max (v.op.mul (.fin (-1)) (speed v.op P A d)) (min (speed v.op P A d) (comp u d)) ∧
      comp r.1 d = max (comp P.lb d) (min (comp P.ub d) (v.op.add (comp x d) z)) ∧
      comp r.2 d = if v.op.add (comp x d) z < comp P.lb d ∨ comp P.ub d < v.op.add (comp x d) z then .fin 0 else z)
    P.info.nx (x, u) ⟨hx, hu, fun _ _ => ⟨rfl, rfl⟩, fun d h => by omega⟩ ?_
  · refine key.mono ?_
    rintro r ⟨h1, h2, _, h4⟩
    refine ⟨inBox0 (by rw [h1, hP.nx]) ?_, allFin_of_comp (fun d hd => (h4 d (by omega)).1), h1, h2, fun d hd => (h4 d hd).2⟩
    intro d l u' y hl hu' hy
    have hd : d < P.info.nx := by rw [← h1]; exact (List.getElem?_eq_some_iff.mp hy).1
    obtain ⟨b1, b2, l0, u0, e1, e2, hlu⟩ := box_comp hP hd
    obtain ⟨_, z, _, hy', _⟩ := h4 d hd
    have ey : comp r.1 d = y := by rw [comp, List.getD_eq_getElem?_getD, hy]; rfl
    have el : comp P.lb d = l := by rw [comp, List.getD_eq_getElem?_getD, hl]; rfl
    have eu : comp P.ub d = u' := by rw [comp, List.getD_eq_getElem?_getD, hu']; rfl
    have hlu' : l ≤ u' := by rw [← el, ← eu, e1, e2]; simpa using hlu
    rw [← ey, hy', el, eu]
    exact ⟨le_max_left _ _, max_le hlu' (min_le_left _ _)⟩
  · rintro i r hi ⟨h1, h2, h3, h4⟩
    obtain ⟨b1, b2, l0, u0, e1, e2, hlu⟩ := box_comp hP hi
    obtain ⟨m1, m2, m3, m4⟩ := comp_maxv (op := v.op) (P := P) (A := A) b1 b2
    obtain ⟨hw, lo, hw0, hlo0, hsp, hmn⟩ := speed_fin hop hP hA hi
    obtain ⟨xd, hxd⟩ := comp_fin hxf (d := i) (by omega)
    obtain ⟨ud, hud⟩ := comp_fin huf (d := i) (by omega)
    obtain ⟨z, hz⟩ := max_min_fin lo hw ud
    obtain ⟨y, hy⟩ := hop.no.add xd z
    unfold psoMoveAt
    rw [get_comp (by omega), Outcome.bind_ok, get_comp m3, Outcome.bind_ok, get_comp m1, Outcome.bind_ok, get_comp (by omega),
      Outcome.bind_ok, get_comp b1, Outcome.bind_ok, get_comp b2, Outcome.bind_ok, Outcome.set_of_lt (by omega), Outcome.bind_ok,
      Outcome.set_of_lt (by omega), Outcome.bind_ok, Outcome.sat_pure]
    rw [(h3 i le_rfl).1, (h3 i le_rfl).2, m2, m4, hmn, hsp, hxd, hud, limit_eq (by linarith), hz, e1, e2]
    have hs : psoShift v.op (.fin l0) (.fin u0) (.fin xd) (.fin z) =
        (max (.fin l0) (min (.fin u0) (.fin y)), if (Fl.fin y : Fl K) < .fin l0 ∨ (Fl.fin u0 : Fl K) < .fin y then .fin 0 else .fin z) := by
      unfold psoShift
      simp only [hy, Fl.gt, Fl.lt_iff (show (Fl.fin u0 : Fl K) ≠ .nan by simp) (show (Fl.fin y : Fl K) ≠ .nan by simp),
        Fl.lt_iff (show (Fl.fin y : Fl K) ≠ .nan by simp) (show (Fl.fin l0 : Fl K) ≠ .nan by simp)]
      have hlu' : (Fl.fin l0 : Fl K) ≤ .fin u0 := by simpa using hlu
      by_cases g1 : (Fl.fin y : Fl K) < .fin l0
      · rw [if_pos g1, if_pos (Or.inl g1), min_eq_right (g1.le.trans hlu'), max_eq_left g1.le]
      · rw [if_neg g1]
        by_cases g2 : (Fl.fin u0 : Fl K) < .fin y
        · rw [if_pos g2, if_pos (Or.inr g2), min_eq_left g2.le, max_eq_right hlu']
        · rw [if_neg g2, if_neg (by tauto), min_eq_right (not_lt.mp g2), max_eq_right (not_lt.mp g1)]
    rw [hs]
    refine ⟨by simp [h1], by simp [h2], ?_, ?_⟩
    · intro d hd
      dsimp only
      rw [comp_set (by omega), comp_set (by omega), if_neg (by omega), if_neg (by omega)]
      exact h3 d (by omega)
    · intro d hd
      dsimp only
      rw [comp_set (by omega), comp_set (by omega)]
      by_cases e : d = i
      · subst e
        rw [if_pos rfl, if_pos rfl]
        refine ⟨?_, .fin z, ?_, ?_, ?_⟩
        · split
          · exact ⟨0, rfl⟩
          · exact ⟨z, rfl⟩
        · rw [hmn, hsp, hud, hz]
        · rw [e1, e2, hxd, hy]
        · rw [e1, e2, hxd, hy]
      · rw [if_neg e, if_neg e]
        exact h4 d (by omega)

/-! ### The first velocities -/

theorem wp_psoInitV {v : Env K σ} {rep : K → Prop} (hg : v.g.Lawful rep) (hop : PsoOps v) {P : AProb K} (hP : FiniteBox P) {A : Pso K}
    (hA : PsoPars A) {n : Nat} {V : List (List (Fl K))} (hV : A.memory = true → V.length = n → Vecs n P.info.nx V) {E : Exn → σ → Prop} (s : σ) :
    wp (psoInitV v P A n V) (fun V' _ => Vecs n P.info.nx V' ∧ (A.memory = true → V.length = n → V' = V) ∧
      (A.memory = false ∨ V.length ≠ n → ∀ w ∈ V', ∀ d, d < P.info.nx →
        v.op.mul (.fin (-1)) (speed v.op P A d) ≤ comp w d ∧ comp w d ≤ speed v.op P A d)) E s := by
  unfold psoInitV
  by_cases hc : V.length ≠ n ∨ A.memory = false
  · rw [if_pos hc]
    refine (wp_range (E := E) (fun i V' _ => Vecs n P.info.nx V' ∧ ∀ (j : Nat) (w : List (Fl K)), j < i → V'[j]? = some w → ∀ d, d < P.info.nx →
        v.op.mul (.fin (-1)) (speed v.op P A d) ≤ comp w d ∧ comp w d ≤ speed v.op P A d) n _ s ?_ ?_).mono ?_ (fun _ _ h => h)
    · refine ⟨⟨by simp, fun x hx => ?_, fun x hx => ?_⟩, fun j w h => by omega⟩
      · rw [(List.mem_replicate.mp hx).2]; simp
      · rw [(List.mem_replicate.mp hx).2]
        intro w hw
        exact ⟨0, by rw [(List.mem_replicate.mp hw).2, hop.zero]⟩
    · rintro i V' s' hi ⟨h1, h2⟩
      have hil : i < V'.length := by rw [h1.len]; exact hi
      unfold psoDrawRow
      rw [wp_bind, wp_lift_get hil, wp_bind]
      have hrow := h1.dim _ (List.getElem_mem hil)
      have := wp_comps (σ := σ) (E := E) hrow (body := psoDrawV v P A) (ρ := Nat → Fl K) (fun _ => .fin 0)
        (fun r d => max (v.op.mul (.fin (-1)) (speed v.op P A d)) (min (speed v.op P A d) (r d))) ?_ s'
      · refine this.mono ?_ (fun _ _ h => h)
        rintro u s1 ⟨g1, g2, r, g3⟩
        rw [wp_lift_set hil]
        refine ⟨h1.set g1 g2, fun j w hj hw d hd => ?_⟩
        rw [List.getElem?_set] at hw
        by_cases e : i = j
        · subst e
          simp only [if_true, hil, Option.some.injEq] at hw
          subst hw
          obtain ⟨w0, m0, hw0, hm0, e1, e2⟩ := speed_fin hop hP hA hd
          rw [g3 d hd, e2, e1]
          exact ⟨le_max_left _ _, max_le (by simpa using hm0.trans hw0) (min_le_left _ _)⟩
        · rw [if_neg e] at hw
          exact h2 j w (by omega) hw d hd
      · intro d z s1 hd hz _
        obtain ⟨b1, b2, _⟩ := box_comp hP hd
        obtain ⟨m1, m2, m3, m4⟩ := comp_maxv (op := v.op) (P := P) (A := A) b1 b2
        obtain ⟨w0, m0, hw0, hm0, e1, e2⟩ := speed_fin hop hP hA hd
        unfold psoDrawV
        rw [wp_bind, get_comp m3, wp_lift_ok, wp_bind, get_comp m1, wp_lift_ok, wp_bind, m2, m4, e2, e1]
        refine wp_uniformAny hg _ _ ?_ ?_
        · intro a b y s2 ea eb hay hyb
          cases ea; cases eb
          rw [wp_lift_set (by omega)]
          refine ⟨fun _ => .fin y, ⟨y, ?_⟩, ?_⟩
          · dsimp only; rw [min_eq_right (by simpa using hyb), max_eq_right (by simpa using hay)]
          · dsimp only; rw [min_eq_right (by simpa using hyb), max_eq_right (by simpa using hay)]
        · intro hf
          refine (hf m0 w0 rfl rfl (hm0.trans hw0) ?_).elim
          obtain ⟨c, hc⟩ := hop.no.sub w0 m0
          rw [hc]; rfl
    · rintro V' s' ⟨h1, h2⟩
      refine ⟨h1, fun hm hl => ?_, fun _ w hw => ?_⟩
      · rcases hc with h | h
        · exact absurd hl h
        · rw [hm] at h; exact absurd h (by decide)
      · obtain ⟨j, hj⟩ := List.mem_iff_getElem?.mp hw
        exact h2 j w (by rw [← h1.len]; exact (List.getElem?_eq_some_iff.mp hj).1) hj
  · rw [if_neg hc, wp_pure]
    have h1 : V.length = n := by by_contra h; exact hc (Or.inl h)
    have h2 : A.memory = true := by
      cases h : A.memory
      · exact absurd (Or.inr h) hc
      · rfl
    refine ⟨hV h2 h1, fun _ _ => rfl, fun h => ?_⟩
    rcases h with h | h
    · rw [h2] at h; exact absurd h (by decide)
    · exact absurd h1 h

end

end Verif.Props
