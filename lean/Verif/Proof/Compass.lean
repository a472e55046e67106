import Verif.Model.Compass
import Verif.Props.SelectReplace
import Verif.Props.Genetic

/-!
# Helper lemmas for `Verif.Props.Compass`
-/

set_option autoImplicit false

namespace Verif.Props

open Verif Run Prob Pop Alg

variable {K σ : Type} [Field K] [LinearOrder K]

/-- What is used of double arithmetic: differences and products of numbers of the right sign have the right sign,
adding or subtracting a non-negative number does not go the wrong way. `rep a`: the number `a` is a double. Overflow is
allowed. -/
structure Directed (op : Fl.Ops K) (rep : K → Prop) : Prop where
  sub_nonneg : ∀ l u : K, l ≤ u → Fl.fin 0 ≤ op.sub (.fin u) (.fin l)
  mul_nonneg : ∀ a b : K, 0 ≤ a → 0 ≤ b → op.mul (.fin a) (.fin b) ≠ .nan ∧ .fin 0 ≤ op.mul (.fin a) (.fin b)
  mul_shrink : ∀ a b : K, 0 ≤ a → 0 ≤ b → b ≤ 1 → rep a → op.mul (.fin a) (.fin b) ≤ .fin a
  add_ge : ∀ (x : K) (d : Fl K), rep x → d ≠ .nan → .fin 0 ≤ d →
    op.add (.fin x) d ≠ .nan ∧ .fin x ≤ op.add (.fin x) d
  sub_le : ∀ (x : K) (d : Fl K), rep x → d ≠ .nan → .fin 0 ≤ d → op.sub (.fin x) d ≠ .nan ∧ op.sub (.fin x) d ≤ .fin x
  rep_add : ∀ a b c : K, ∀ d : Fl K, op.add (.fin a) d = .fin c → rep c
  rep_sub : ∀ a c : K, ∀ d : Fl K, op.sub (.fin a) d = .fin c → rep c
  rep_mul : ∀ a b c : K, op.mul (.fin a) (.fin b) = .fin c → rep c

/-- a decision vector of numbers that are doubles -/
def RepVec (rep : K → Prop) (x : List (Fl K)) : Prop := ∀ a, Fl.fin a ∈ x → rep a

theorem inBox0 {lb ub x : List (Fl K)} (h : x.length = lb.length)
    (h' : ∀ (i : Nat) (l u v : Fl K), lb[i]? = some l → ub[i]? = some u → x[i]? = some v → l ≤ v ∧ v ≤ u) :
    InBox lb ub 0 x := by
  refine ⟨h, fun i l u v hl hu hv => ⟨(h' i l u v hl hu hv).1, (h' i l u v hl hu hv).2, fun hi => ?_⟩⟩
  have := (List.getElem?_eq_some_iff.mp hl).1
  omega

theorem inBox_set {lb ub x : List (Fl K)} {i : Nat} {w : Fl K} (h : InBox lb ub 0 x)
    (hw : ∀ l u : Fl K, lb[i]? = some l → ub[i]? = some u → l ≤ w ∧ w ≤ u) : InBox lb ub 0 (x.set i w) := by
  refine inBox0 (by simpa using h.1) ?_
  intro j l u v hl hu hv
  rw [List.getElem?_set] at hv
  by_cases e : i = j
  · subst e
    rw [if_pos rfl] at hv
    split at hv
    · cases hv; exact hw l u hl hu
    · cases hv
  · rw [if_neg e] at hv
    have := h.2 j l u v hl hu hv
    exact ⟨this.1, this.2.1⟩

omit [Field K] [LinearOrder K] in
theorem repVec_set {rep : K → Prop} {x : List (Fl K)} {i : Nat} {w : Fl K} (h : RepVec rep x)
    (hw : ∀ a, w = .fin a → rep a) : RepVec rep (x.set i w) := by
  intro a ha
  rcases List.mem_or_eq_of_mem_set ha with ha | ha
  · exact h a ha
  · exact hw a ha.symm

/-- The problem: constructed, finite bounds whose difference does not overflow, made of doubles. -/
structure Searchable (op : Fl.Ops K) (rep : K → Prop) (P : AProb K) : Prop where
  bounds : SaneBounds P.lb P.ub P.nix
  nx : P.info.nx = P.lb.length
  nobj : P.info.nobj = 1
  finite : ∀ (i : Nat) (l u : Fl K), P.lb[i]? = some l → P.ub[i]? = some u →
    l.isFinite = true ∧ u.isFinite = true ∧ (op.sub u l).isFinite = true
  repB : RepVec rep (P.lb ++ P.ub)

/-- invariant of the search: `new` are the evaluations so far, `x0`, `f0` the starting point -/
structure CInv (better : List (Fl K) → List (Fl K) → Prop) (rep : K → Prop) (P : AProb K) (s0 : St K σ)
    (x0 f0 : List (Fl K)) (c : CVars K) (new : List (ECall K)) (s : St K σ) : Prop where
  pop : s.pop = s0.pop
  evs : s.evs = s0.evs ++ new
  box : ∀ p ∈ new, InBox P.lb P.ub 0 p.1
  here : InBox P.lb P.ub 0 c.x
  repX : RepVec rep c.x
  len : c.f.length = P.info.nf
  imp : (c.x, c.f) = (x0, f0) ∨ (c.x, Except.ok c.f) ∈ new ∧ better c.f f0
  range : ∃ r : K, c.range = .fin r ∧ 0 ≤ r ∧ rep r

section
variable [IsStrictOrderedRing K]

/-- `fevals` counts the evaluations; what the loops maintain in addition -/
structure CCount (c : CVars K) (new : List (ECall K)) (n0 i : Nat) : Prop where
  cnt : c.fevals = new.length
  lo : n0 + min i 1 ≤ new.length
  hi : new.length ≤ n0 + 2 * i
  fl : c.flag = true → n0 + 1 ≤ new.length

theorem compass_trial {v : Env K σ} {P : AProb K} {better : List (Fl K) → List (Fl K) → Prop} {rep : K → Prop}
    {s0 : St K σ} (hb : ∀ f g : List (Fl K), f.length = P.info.nf → g.length = P.info.nf →
      (better f g ↔ Con.compareFc v.sq f g P.info.nec s0.pop.tol = .ok true))
    {x0 f0 : List (Fl K)} (hf0 : f0.length = P.info.nf)
    (tr : ∀ f g h : List (Fl K), f.length = P.info.nf → g.length = P.info.nf → h.length = P.info.nf →
      better f g → better g h → better f h) (hnx : P.info.nx = P.lb.length) (hnobj : P.info.nobj = 1)
    (htol : s0.pop.tol.length = P.info.nc) {c : CVars K} {new : List (ECall K)} {s : St K σ} {xt : List (Fl K)}
    (hi : CInv better rep P s0 x0 f0 c new s) (hbx : InBox P.lb P.ub 0 xt) (hrx : RepVec rep xt)
    {Q : CVars K → St K σ → Prop} {E : Exn → St K σ → Prop}
    (hq : ∀ c' p s', CInv better rep P s0 x0 f0 c' (new ++ [p]) s' → c'.fevals = incU c.fevals →
      (c.flag = false → c'.flag = false → c'.x = c.x) → c'.range = c.range → Q c' s')
    (he : ∀ e p s', s'.evs = s0.evs ++ (new ++ [p]) → InBox P.lb P.ub 0 p.1 → UserFault P s'.evs e → E e s') :
    wp (compassTrial v P xt c) Q E s := by
  unfold compassTrial
  rw [wp_bind]
  refine wp_eval (by rw [hnx]; exact hbx.1) ?_ ?_
  · intro f _ hf
    rw [wp_bind, wp_get', wp_bind]
    have hnf : P.info.nf = P.info.nc + 1 := by simp only [Info.nf, Info.nc, hnobj]; omega
    have hnec : P.info.nec ≤ P.info.nc := by simp [Info.nc]
    simp only [hi.pop]
    obtain ⟨r, hr⟩ := Con.compareFc_isOk (sq := v.sq) (neq := P.info.nec) (tol := s0.pop.tol) (f := f) (g := c.f)
      ⟨by omega, by omega⟩ ⟨by have := hi.len; omega, by omega⟩
    rw [hr, wp_lift_ok, wp_pure]
    have hbox' : ∀ p ∈ new ++ [(xt, Except.ok f)], InBox P.lb P.ub 0 p.1 := by
      intro p hp
      rcases List.mem_append.mp hp with hp | hp
      · exact hi.box p hp
      · rw [List.mem_singleton.mp hp]; exact hbx
    have hev : s.evs ++ [(xt, Except.ok f)] = s0.evs ++ (new ++ [(xt, .ok f)]) := by
      rw [hi.evs, List.append_assoc]
    cases r with
    | true =>
      have hbt : better f c.f := (hb f c.f hf hi.len).mpr hr
      refine hq _ (xt, .ok f) _ ⟨rfl, hev, hbox', hbx, hrx, hf, Or.inr ⟨by simp, ?_⟩, hi.range⟩ rfl (fun _ h => by cases h) rfl
      rcases hi.imp with h | h
      · have h2 : c.f = f0 := congrArg Prod.snd h
        rw [← h2]; exact hbt
      · exact tr _ _ _ hf hi.len hf0 hbt h.2
    | false =>
      refine hq _ (xt, .ok f) _ ⟨rfl, hev, hbox', hi.here, hi.repX, hi.len, ?_, hi.range⟩ rfl (fun _ _ => rfl) rfl
      exact hi.imp.imp id (fun h => ⟨List.mem_append_left _ h.1, h.2⟩)
  · intro e r hu
    refine he e (xt, r) _ ?_ hbx hu
    rw [← List.append_assoc, ← hi.evs]

theorem incU_eq {n : Nat} (h : n + 1 < 2 ^ 32) : incU n = n + 1 := Nat.mod_eq_of_lt h

omit [IsStrictOrderedRing K] in
theorem up_spec {op : Fl.Ops K} {rep : K → Prop} (hd : Directed op rep) {l u r x : K} (hlu : l ≤ u)
    (hf : (op.sub (.fin u) (.fin l)).isFinite = true) (hr : 0 ≤ r) (hx : l ≤ x) (hrx : rep x) (hru : rep u) :
    let up := op.add (.fin x) (op.mul (.fin r) (op.sub (.fin u) (.fin l)))
    let w := if Fl.gt up (.fin u) then Fl.fin u else up
    (.fin l ≤ w ∧ w ≤ .fin u) ∧ ∀ a, w = .fin a → rep a := by
  intro up w
  have h0 := hd.sub_nonneg l u hlu
  cases hd' : op.sub (.fin u) (.fin l) with
  | nan => rw [hd'] at hf; cases hf
  | ninf => rw [hd'] at hf; cases hf
  | pinf => rw [hd'] at hf; cases hf
  | fin d =>
    rw [hd'] at h0
    have hd0 : 0 ≤ d := by simpa using h0
    obtain ⟨n1, m1⟩ := hd.mul_nonneg r d hr hd0
    obtain ⟨n2, m2⟩ := hd.add_ge x _ hrx n1 m1
    have hup : up = op.add (.fin x) (op.mul (.fin r) (.fin d)) := by simp only [up, hd']
    rw [← hup] at n2 m2
    have hlx : Fl.fin l ≤ Fl.fin x := by simpa using hx
    rw [show w = if Fl.lt (.fin u) up then .fin u else up from rfl]
    by_cases h : Fl.fin u < up
    · rw [(Fl.lt_iff (by simp) n2).mpr h, if_pos rfl]
      exact ⟨⟨by simpa using hlu, le_rfl⟩, fun a ha => by cases ha; exact hru⟩
    · rw [show Fl.lt (.fin u) up = false by rw [Bool.eq_false_iff, ne_eq, Fl.lt_iff (by simp) n2]; exact h,
        if_neg (by simp)]
      exact ⟨⟨hlx.trans m2, not_lt.mp h⟩, fun a ha => hd.rep_add x 0 a _ (hup ▸ ha)⟩

omit [IsStrictOrderedRing K] in
theorem down_spec {op : Fl.Ops K} {rep : K → Prop} (hd : Directed op rep) {l u r x : K} (hlu : l ≤ u)
    (hf : (op.sub (.fin u) (.fin l)).isFinite = true) (hr : 0 ≤ r) (hx : x ≤ u) (hrx : rep x) (hrl : rep l) :
    let down := op.sub (.fin x) (op.mul (.fin r) (op.sub (.fin u) (.fin l)))
    let w := if Fl.lt down (.fin l) then Fl.fin l else down
    (.fin l ≤ w ∧ w ≤ .fin u) ∧ ∀ a, w = .fin a → rep a := by
  intro down w
  have h0 := hd.sub_nonneg l u hlu
  cases hd' : op.sub (.fin u) (.fin l) with
  | nan => rw [hd'] at hf; cases hf
  | ninf => rw [hd'] at hf; cases hf
  | pinf => rw [hd'] at hf; cases hf
  | fin d =>
    rw [hd'] at h0
    have hd0 : 0 ≤ d := by simpa using h0
    obtain ⟨n1, m1⟩ := hd.mul_nonneg r d hr hd0
    obtain ⟨n2, m2⟩ := hd.sub_le x _ hrx n1 m1
    have hdn : down = op.sub (.fin x) (op.mul (.fin r) (.fin d)) := by simp only [down, hd']
    rw [← hdn] at n2 m2
    have hxu : Fl.fin x ≤ Fl.fin u := by simpa using hx
    simp only [w]
    by_cases h : down < Fl.fin l
    · rw [(Fl.lt_iff n2 (by simp)).mpr h, if_pos rfl]
      exact ⟨⟨le_rfl, by simpa using hlu⟩, fun a ha => by cases ha; exact hrl⟩
    · rw [show Fl.lt down (.fin l) = false by rw [Bool.eq_false_iff, ne_eq, Fl.lt_iff n2 (by simp)]; exact h,
        if_neg (by simp)]
      exact ⟨⟨not_lt.mp h, m2.trans hxu⟩, fun a ha => hd.rep_sub x a _ (hdn ▸ ha)⟩

theorem compass_coord {v : Env K σ} {P : AProb K} {better : List (Fl K) → List (Fl K) → Prop} {rep : K → Prop}
    (hd : Directed v.op rep) (hP : Searchable v.op rep P)
    {s0 : St K σ} (hb : ∀ f g : List (Fl K), f.length = P.info.nf → g.length = P.info.nf →
      (better f g ↔ Con.compareFc v.sq f g P.info.nec s0.pop.tol = .ok true))
    {x0 f0 : List (Fl K)} (hf0 : f0.length = P.info.nf)
    (tr : ∀ f g h : List (Fl K), f.length = P.info.nf → g.length = P.info.nf → h.length = P.info.nf →
      better f g → better g h → better f h)
    (htol : s0.pop.tol.length = P.info.nc) {c : CVars K} {new : List (ECall K)} {s : St K σ} {n0 i : Nat}
    (hi : CInv better rep P s0 x0 f0 c new s) (hc : CCount c new n0 i) (hin : i < P.info.nx)
    (hN : n0 + 2 * P.info.nx < 2 ^ 32) {Q : CVars K → St K σ → Prop} {E : Exn → St K σ → Prop}
    (hq : ∀ c' new' s', CInv better rep P s0 x0 f0 c' new' s' → CCount c' new' n0 (i + 1) → Q c' s')
    (he : ∀ e new' s', s'.evs = s0.evs ++ new' → (∀ p ∈ new', InBox P.lb P.ub 0 p.1) → new'.length ≤ n0 + 2 * P.info.nx →
      UserFault P s'.evs e → E e s') :
    wp (compassCoord v P c i) Q E s := by
  unfold compassCoord
  split
  · rename_i hfl
    exact hq c new s hi ⟨hc.cnt, by have := hc.fl hfl; omega, by have := hc.hi; omega, hc.fl⟩
  rename_i hfl
  have hfl0 : c.flag = false := by simpa using hfl
  have hxl : i < c.x.length := by rw [hi.here.1, ← hP.nx]; exact hin
  have hll : i < P.lb.length := by rw [← hP.nx]; exact hin
  have hul : i < P.ub.length := by rw [← hP.bounds.len]; exact hll
  rw [wp_bind, wp_lift_get hxl, wp_bind, wp_lift_get hll, wp_bind, wp_lift_get hul]
  obtain ⟨r, hr, hr0, hrr⟩ := hi.range
  obtain ⟨n1, n2, n3⟩ := hP.finite i _ _ (List.getElem?_eq_getElem hll) (List.getElem?_eq_getElem hul)
  obtain ⟨_, _, hlu⟩ := hP.bounds.ordered i _ _ (List.getElem?_eq_getElem hll) (List.getElem?_eq_getElem hul)
  have hx := hi.here.2 i _ _ _ (List.getElem?_eq_getElem hll) (List.getElem?_eq_getElem hul) (List.getElem?_eq_getElem hxl)
  have hrepx := hi.repX
  have hrepb := hP.repB
  have hmx := List.getElem_mem hxl
  have hml : P.lb[i] ∈ P.lb ++ P.ub := List.mem_append_left _ (List.getElem_mem hll)
  have hmu : P.ub[i] ∈ P.lb ++ P.ub := List.mem_append_right _ (List.getElem_mem hul)
  have hget1 : ∀ l' : Fl K, P.lb[i]? = some l' → l' = P.lb[i] := fun l' h => by
    rw [List.getElem?_eq_getElem hll] at h; exact (Option.some.inj h).symm
  have hget2 : ∀ l' : Fl K, P.ub[i]? = some l' → l' = P.ub[i] := fun l' h => by
    rw [List.getElem?_eq_getElem hul] at h; exact (Option.some.inj h).symm
  generalize P.lb[i] = L at *
  generalize P.ub[i] = U at *
  generalize c.x[i] = X at *
  rw [hr]
  obtain ⟨l, rfl⟩ : ∃ l, L = .fin l := by cases L <;> first | (cases n1; done) | exact ⟨_, rfl⟩
  obtain ⟨u, rfl⟩ : ∃ l, U = .fin l := by cases U <;> first | (cases n2; done) | exact ⟨_, rfl⟩
  obtain ⟨x, rfl, hlx, hxu⟩ := between_cases hx.1 hx.2.1
  have hlu' : l ≤ u := by simpa using hlu
  obtain ⟨b1, r1⟩ := up_spec hd hlu' n3 hr0 hlx (hrepx x hmx) (hrepb u hmu)
  obtain ⟨b2, r2⟩ := down_spec hd hlu' n3 hr0 hxu (hrepx x hmx) (hrepb l hml)
  dsimp only at b1 r1 b2 r2 ⊢
  rw [wp_bind, wp_lift_set hxl, wp_bind]
  have B1 : ∀ w : Fl K, .fin l ≤ w ∧ w ≤ .fin u → ∀ y, InBox P.lb P.ub 0 y → InBox P.lb P.ub 0 (y.set i w) := by
    intro w hw y hy
    refine inBox_set hy ?_
    intro l' u' hl' hu'
    rw [hget1 l' hl', hget2 u' hu']; exact hw
  have hnew := hc.hi
  refine compass_trial hb hf0 tr hP.nx hP.nobj htol hi (B1 _ b1 _ hi.here) (repVec_set hi.repX r1) ?_ ?_
  · intro c1 p1 s1 hi1 hf1 hx1 hr1
    have hinc : incU c.fevals = new.length + 1 := by rw [hc.cnt]; exact incU_eq (by omega)
    split
    · exact hq c1 _ s1 hi1 ⟨by rw [hf1, hinc]; simp, by simp; have := hc.lo; omega, by simp; omega, fun _ => by simp; have := hc.lo; omega⟩
    · rename_i hfl1
      have hfl1' : c1.flag = false := by simpa using hfl1
      rw [wp_bind]
      rw [wp_lift_set (by simpa using hxl)]
      rw [hr1, hr]
      refine compass_trial hb hf0 tr hP.nx hP.nobj htol hi1 (B1 _ b2 _ (B1 _ b1 _ hi.here))
        (repVec_set (repVec_set hi.repX r1) r2) ?_ ?_
      · intro c2 p2 s2 hi2 hf2 _ _
        have hinc2 : incU c1.fevals = new.length + 2 := by rw [hf1, hinc]; exact incU_eq (by omega)
        exact hq c2 _ s2 hi2 ⟨by rw [hf2, hinc2]; simp, by simp; have := hc.lo; omega, by simp; omega, fun _ => by simp; have := hc.lo; omega⟩
      · intro e p s' h1 h2 h3
        refine he e _ s' h1 ?_ (by simp; omega) h3
        intro q hq'
        rcases List.mem_append.mp hq' with hq' | hq'
        · exact hi1.box q hq'
        · rw [List.mem_singleton.mp hq']; exact h2
  · intro e p s' h1 h2 h3
    refine he e _ s' h1 ?_ (by simp; omega) h3
    intro q hq'
    rcases List.mem_append.mp hq' with hq' | hq'
    · exact hi.box q hq'
    · rw [List.mem_singleton.mp hq']; exact h2

theorem compass_loop {v : Env K σ} {P : AProb K} {A : Compass K} {better : List (Fl K) → List (Fl K) → Prop}
    {rep : K → Prop} (hd : Directed v.op rep) (hP : Searchable v.op rep P) {q : K} (hq0 : 0 < q) (hq1 : q < 1)
    (hred : A.red = .fin q)
    {s0 : St K σ} (hb : ∀ f g : List (Fl K), f.length = P.info.nf → g.length = P.info.nf →
      (better f g ↔ Con.compareFc v.sq f g P.info.nec s0.pop.tol = .ok true))
    {x0 f0 : List (Fl K)} (hf0 : f0.length = P.info.nf)
    (tr : ∀ f g h : List (Fl K), f.length = P.info.nf → g.length = P.info.nf → h.length = P.info.nf →
      better f g → better g h → better f h)
    (htol : s0.pop.tol.length = P.info.nc) (hN : A.maxFevals + 2 * P.info.nx < 2 ^ 32)
    {Q : CVars K → St K σ → Prop} {E : Exn → St K σ → Prop}
    (hq : ∀ c' new' s', CInv better rep P s0 x0 f0 c' new' s' → new'.length ≤ A.maxFevals + 2 * P.info.nx → Q c' s')
    (he : ∀ e new' s', s'.evs = s0.evs ++ new' → (∀ p ∈ new', InBox P.lb P.ub 0 p.1) →
      new'.length ≤ A.maxFevals + 2 * P.info.nx → UserFault P s'.evs e → E e s') :
    ∀ (n : Nat) (c : CVars K) (new : List (ECall K)) (s : St K σ), CInv better rep P s0 x0 f0 c new s →
      c.fevals = new.length → new.length ≤ A.maxFevals + 2 * P.info.nx → A.maxFevals + 1 < n + new.length → 0 < n →
      wp (compassLoop v P A n c) Q E s := by
  intro n
  induction n with
  | zero => intro c new s _ _ _ _ h; omega
  | succ n ih =>
    intro c new s hi hc hle hn _
    unfold compassLoop
    split
    · rename_i hcond
      simp only [Bool.and_eq_true, decide_eq_true_eq] at hcond
      have hmax : new.length ≤ A.maxFevals := hc ▸ hcond.2
      have hnx0 : 0 < P.info.nx := by rw [hP.nx]; exact List.length_pos_iff.mpr hP.bounds.nonempty
      rw [wp_bind]
      refine (wp_range (f := compassCoord v P) (E := E) (fun i c' s' => ∃ new', CInv better rep P s0 x0 f0 c' new' s' ∧ CCount c' new' new.length i)
        P.info.nx { c with flag := false } s ⟨new, ⟨hi.pop, hi.evs, hi.box, hi.here, hi.repX, hi.len, hi.imp, hi.range⟩,
          ⟨hc, by simp, by simp, nofun⟩⟩ ?_).mono ?_ (fun _ _ h => h)
      · rintro i c' s' hin ⟨new', hi', hc'⟩
        exact compass_coord hd hP hb hf0 tr htol hi' hc' hin (by omega)
          (fun c2 n2 s2 h1 h2 => ⟨n2, h1, h2⟩)
          (fun e n2 s2 h1 h2 h3 h4 => he e n2 s2 h1 h2 (by omega) h4)
      · rintro c' s' ⟨new', hi', hc'⟩
        have hlo := hc'.lo
        have hhi := hc'.hi
        have hcv : CInv better rep P s0 x0 f0 (compassShrink v A c') new' s' := by
          unfold compassShrink
          split
          · exact hi'
          · obtain ⟨r, hr, hr0, hrr⟩ := hi'.range
            obtain ⟨m1, m2⟩ := hd.mul_nonneg r q hr0 hq0.le
            have m3 := hd.mul_shrink r q hr0 hq0.le hq1.le hrr
            refine ⟨hi'.pop, hi'.evs, hi'.box, hi'.here, hi'.repX, hi'.len, hi'.imp, ?_⟩
            simp only [hr, hred]
            obtain ⟨k, hk, hk0, _⟩ := between_cases m2 m3
            exact ⟨k, hk, hk0, hd.rep_mul r q k hk⟩
        have hfe : (compassShrink v A c').fevals = new'.length := by
          unfold compassShrink; split <;> exact hc'.cnt
        refine ih _ new' s' hcv hfe (by omega) (by omega) (by omega)
    · exact hq c new s hi hle

end

end Verif.Props
