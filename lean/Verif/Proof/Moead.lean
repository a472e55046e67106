import Verif.Model.Moead
import Verif.Proof.Nsga2
import Verif.Props.Decompose
import Verif.Props.Weights
import Verif.Props.Knn
import Verif.Props.MultiObjective

/-!
# Helper lemmas for `Verif.Props.Moead`
-/

set_option autoImplicit false

namespace Verif.Props

open Verif Run Prob Pop Alg Genetic MO

variable {K σ : Type}

/-! ## Lists -/

/-- `std::shuffle` gives a permutation. -/
theorem wp_shuffle_perm [LinearOrder K] {α : Type} {d : Dist K σ} [Field K] (hd : d.Lawful) {xs : List α} {Q : List α → σ → Prop} {E : Exn → σ → Prop}
    {e : σ} (h : ∀ l e', l.Perm xs → Q l e') : wp (d.shuffle xs) Q E e := by
  have hp := hd.perm_perm xs.length e
  obtain ⟨l, h1, h2, h3⟩ := gather_spec xs (d.perm xs.length e).1 (fun i hi => by simpa using hp.mem_iff.mp hi)
  unfold Dist.shuffle wp
  dsimp only
  rw [h1]
  refine h l _ ?_
  have e1 : l.map some = (d.perm xs.length e).1.map (fun i => xs[i]?) := by
    apply List.ext_getElem?
    intro j
    rw [List.getElem?_map, List.getElem?_map]
    by_cases hj : j < l.length
    · have hj' : j < (d.perm xs.length e).1.length := by omega
      have := h3 j _ (List.getElem?_eq_getElem hj')
      rw [List.getElem?_eq_getElem hj', Option.map_some, ← this, List.getElem?_eq_getElem hj]; rfl
    · rw [List.getElem?_eq_none (by omega), List.getElem?_eq_none (by omega)]; rfl
  have e2 : xs.map some = (List.range xs.length).map (fun i => xs[i]?) := by
    apply List.ext_getElem?
    intro j
    rw [List.getElem?_map, List.getElem?_map]
    by_cases hj : j < xs.length
    · rw [List.getElem?_eq_getElem hj, List.getElem?_range hj, Option.map_some, Option.map_some, List.getElem?_eq_getElem hj]
    · rw [List.getElem?_eq_none (by omega), List.getElem?_eq_none (by simpa using hj)]; rfl
  have e3 : (l.map some).Perm (xs.map some) := by
    rw [e1, e2]; exact hp.map _
  simpa using e3.filterMap (fun o : Option α => o)

theorem wpn_weaken {σ α : Type} {N N' : Prop} {m : Run σ α} {Q : α → σ → Prop} {E : Exn → σ → Prop} {s : σ} (h : wpn N m Q E s)
    (hN : N → N') : wpn N' m Q E s := by
  unfold wpn at *
  rcases hm : m s with ⟨_ | _ | _ | _, s'⟩ <;> rw [hm] at h
  · exact h
  · exact h
  · exact h
  · exact hN h

/-- Loops over a list, in code that need not terminate. -/
theorem wpn_foldlM {σ α β : Type} {N : Prop} {f : β → α → Run σ β} {E : Exn → σ → Prop} (I : List α → β → σ → Prop) :
    ∀ (l : List α) (b : β) (s : σ), I [] b s →
    (∀ (p : List α) (a : α) (q : List α) (b : β) (s : σ), l = p ++ a :: q → I p b s →
      wpn N (f b a) (fun b' s' => I (p ++ [a]) b' s') E s) →
    wpn N (l.foldlM f b) (fun b' s' => I l b' s') E s := by
  have gen : ∀ (q p : List α) (b : β) (s : σ), I p b s →
      (∀ (p' : List α) (a : α) (q' : List α) (b : β) (s : σ), p ++ q = p' ++ a :: q' → I p' b s →
        wpn N (f b a) (fun b' s' => I (p' ++ [a]) b' s') E s) →
      wpn N (q.foldlM f b) (fun b' s' => I (p ++ q) b' s') E s := by
    intro q
    induction q with
    | nil => intro p b s h _; rw [List.foldlM_nil, wpn_pure]; simpa using h
    | cons a q ih =>
      intro p b s h hs
      rw [List.foldlM_cons, wpn_bind]
      refine (hs p a q b s rfl h).mono ?_ (fun _ _ h => h)
      intro b' s' h'
      have := ih (p ++ [a]) b' s' h' (fun p' a' q' b s e => hs p' a' q' b s (by rw [← e]; simp))
      simpa using this
  intro l b s h hs
  simpa using gen l [] b s h (by simpa using hs)

section
variable [Field K] [LinearOrder K]

/-! ## Parents -/

/-- the engine after `k` draws of an integer below `N` -/
def afterInt (g : Gen K σ) (N : Nat) : Nat → σ → σ
  | 0, e => e
  | k + 1, e => afterInt g N k (g.int ((0 : Nat) : ℤ) ((N - 1 : Nat) : ℤ) e).2

/-- The `k`-th integer drawn below `N`, modulo `m`. -/
def drawnMod (g : Gen K σ) (N m k : Nat) (e : σ) : Nat := (g.int ((0 : Nat) : ℤ) ((N - 1 : Nat) : ℤ) (afterInt g N k e)).1.toNat % m

/-- The engine can give `fuel - 1` integers below `N` in a row that are congruent modulo some `m ≥ 2`. -/
def StuckDraws (g : Gen K σ) (N fuel : Nat) : Prop := ∃ (e : σ) (m : Nat), 2 ≤ m ∧ ∀ j, j + 1 < fuel → drawnMod g N m j e = drawnMod g N m 0 e

/-- The neighbourhoods: at least two different individuals each. -/
structure NeighOk (neigh : List (List Nat)) (NP : Nat) : Prop where
  len : neigh.length = NP
  two : ∀ ns ∈ neigh, 2 ≤ ns.length ∧ ns.Nodup ∧ ∀ j ∈ ns, j < NP

/-- the individuals the parents are taken from -/
def poolOf (neigh : List (List Nat)) (NP n : Nat) (whole : Bool) : List Nat := if whole then List.range NP else neigh.getD n []

theorem poolOf_ok {neigh : List (List Nat)} {NP n : Nat} (hn : NeighOk neigh NP) (hlt : n < NP) (h2 : 2 ≤ NP) (whole : Bool) :
    2 ≤ (poolOf neigh NP n whole).length ∧ (poolOf neigh NP n whole).Nodup ∧ ∀ j ∈ poolOf neigh NP n whole, j < NP := by
  unfold poolOf
  cases whole with
  | true => exact ⟨by simpa using h2, List.nodup_range, by simp⟩
  | false =>
    have hl : n < neigh.length := by rw [hn.len]; exact hlt
    have : neigh.getD n [] = neigh[n] := by simp [List.getD, hl]
    simp only [Bool.false_eq_true, if_false, this]
    exact hn.two _ (List.getElem_mem hl)

theorem wp_moeadDraw {g : Gen K σ} {rep : K → Prop} (hg : g.Lawful rep) {neigh : List (List Nat)} {NP n : Nat} (hn : NeighOk neigh NP)
    (hlt : n < NP) (h2 : 2 ≤ NP) (whole : Bool) {E : Exn → σ → Prop} (e : σ) :
    wp (moeadDraw g n neigh whole) (fun p e' => e' = afterInt g NP 1 e ∧
      (poolOf neigh NP n whole)[drawnMod g NP (poolOf neigh NP n whole).length 0 e]? = some p) E e := by
  have hl : n < neigh.length := by rw [hn.len]; exact hlt
  have hpl := poolOf_ok hn hlt h2 whole
  unfold moeadDraw
  rw [wp_bind, wp_lift_get hl, wp_bind, hn.len]
  have hmem := hg.int_mem ((0 : Nat) : ℤ) ((NP - 1 : Nat) : ℤ) e (by omega)
  unfold wp Gen.drawNat
  rw [if_pos (by omega)]
  dsimp only
  cases whole with
  | true =>
    refine ⟨rfl, ?_⟩
    simp only [poolOf, if_true, List.length_range, drawnMod, afterInt]
    rw [Nat.mod_eq_of_lt (by omega), List.getElem?_range (by omega)]
  | false =>
    have hgd : neigh.getD n [] = neigh[n] := by simp [List.getD, hl]
    simp only [poolOf, Bool.false_eq_true, if_false, hgd, drawnMod, afterInt] at hpl ⊢
    have hm : (g.int ((0 : Nat) : ℤ) ((NP - 1 : Nat) : ℤ) e).1.toNat % neigh[n].length < neigh[n].length := Nat.mod_lt _ (by omega)
    show wp (Run.lift _) _ _ _
    rw [wp_lift_get hm]
    exact ⟨rfl, List.getElem?_eq_getElem hm⟩

theorem afterInt_succ (g : Gen K σ) (N k : Nat) (e : σ) : afterInt g N (k + 1) e = afterInt g N k (afterInt g N 1 e) := rfl

/-- Two different individuals of the pool, unless the engine is stuck. -/
theorem wpn_moeadParents {g : Gen K σ} {rep : K → Prop} (hg : g.Lawful rep) {neigh : List (List Nat)} {NP n : Nat} (hn : NeighOk neigh NP)
    (hlt : n < NP) (h2 : 2 ≤ NP) (whole : Bool) (fuel : Nat) {E : Exn → σ → Prop} (e : σ) :
    wpn (StuckDraws g NP fuel) (moeadParents g n neigh whole fuel []) (fun ps _ => ∃ p q, ps = [p, q] ∧ p ≠ q ∧
      p ∈ poolOf neigh NP n whole ∧ q ∈ poolOf neigh NP n whole) E e := by
  have hpl := poolOf_ok hn hlt h2 whole
  generalize hpool : poolOf neigh NP n whole = pool at hpl ⊢
  have second : ∀ (fuel : Nat) (e : σ) (r p : Nat), pool[r]? = some p →
      wpn (∀ j, j + 1 < fuel → drawnMod g NP pool.length j e = r) (moeadParents g n neigh whole fuel [p]) (fun ps _ => ∃ p q, ps = [p, q] ∧ p ≠ q ∧
        p ∈ pool ∧ q ∈ pool) E e := by
    intro fuel
    induction fuel with
    | zero => intro e r p _; exact wpn_nofuel (fun j h => absurd h (by omega))
    | succ fuel ih =>
      intro e r p hp
      rw [moeadParents, if_pos (by simp), wpn_bind]
      have hd := wpn_of_wp (N := ∀ j, j + 1 < fuel + 1 → drawnMod g NP pool.length j e = r) (wp_moeadDraw (E := E) hg hn hlt h2 whole e)
      rw [hpool] at hd
      refine hd.mono ?_ (fun _ _ h => h)
      rintro q e' ⟨rfl, hq⟩
      by_cases hpq : p = q
      · subst hpq
        have hr : drawnMod g NP pool.length 0 e = r := by
          obtain ⟨a1, a2⟩ := List.getElem?_eq_some_iff.mp hq
          obtain ⟨b1, b2⟩ := List.getElem?_eq_some_iff.mp hp
          exact (List.Nodup.getElem_inj_iff hpl.2.1).mp (a2.trans b2.symm)
        simp only [List.contains_cons, beq_self_eq_true, Bool.true_or, if_true]
        refine wpn_weaken (ih (afterInt g NP 1 e) r p hp) ?_
        intro this j hj
        match j with
        | 0 => exact hr
        | j + 1 => exact this j (by omega)
      · have : ([p].contains q) = false := by simpa using fun h => hpq h.symm
        rw [this]
        simp only [Bool.false_eq_true, if_false, List.cons_append, List.nil_append]
        cases fuel with
        | zero => exact wpn_nofuel (fun j h => absurd h (by omega))
        | succ fuel =>
          rw [moeadParents, if_neg (by simp), wpn_pure]
          exact ⟨p, q, rfl, hpq, List.mem_of_getElem? hp, List.mem_of_getElem? hq⟩
  cases fuel with
  | zero => exact wpn_nofuel ⟨e, 2, le_rfl, fun j h => absurd h (by omega)⟩
  | succ fuel =>
    rw [moeadParents, if_pos (by simp), wpn_bind]
    have hd := wpn_of_wp (N := StuckDraws g NP (fuel + 1)) (wp_moeadDraw (E := E) hg hn hlt h2 whole e)
    rw [hpool] at hd
    refine hd.mono ?_ (fun _ _ h => h)
    rintro q e' ⟨rfl, hq⟩
    simp only [List.contains_nil, Bool.false_eq_true, if_false, List.nil_append]
    refine wpn_weaken (second fuel (afterInt g NP 1 e) _ q hq) ?_
    intro this
    refine ⟨e, pool.length, hpl.1, fun j hj => ?_⟩
    match j with
    | 0 => rfl
    | j + 1 => exact this j (by omega)

end

/-! ## The candidate -/

section
variable [Field K] [LinearOrder K] [IsStrictOrderedRing K]

/-- What keeps the candidates inside the bounds: the bounds are finite, and the two steps by which a candidate is made do
not leave an interval. -/
structure MoeadNum (v : MoeadEnv K σ) (A : Moead K) (lb ub : List (Fl K)) : Prop where
  finL : ∀ l ∈ lb, l.isFinite = true
  finU : ∀ u ∈ ub, u.isFinite = true
  cross : ∀ l u x a b r t : K, l ≤ x → x ≤ u → l ≤ a → a ≤ u → l ≤ b → b ≤ u → 0 ≤ r → r ≤ 1 → 0 ≤ t → t ≤ 1 →
    ∀ w w' : Fl K, w = v.op.add (.fin x) (v.op.mul A.fac (v.op.sub (.fin a) (.fin b))) →
    w' = (if Fl.lt w (.fin l) then v.op.add (.fin l) (v.op.mul (.fin r) (v.op.sub (.fin x) (.fin l))) else w) →
    .fin l ≤ (if Fl.gt w' (.fin u) then v.op.sub (.fin u) (v.op.mul (.fin t) (v.op.sub (.fin u) (.fin x))) else w') ∧
    (if Fl.gt w' (.fin u) then v.op.sub (.fin u) (v.op.mul (.fin t) (v.op.sub (.fin u) (.fin x))) else w') ≤ .fin u
  poly : ∀ l u y r : K, l < u → l ≤ y → y ≤ u → 0 ≤ r → r ≤ 1 → polyValue v.pw v.op (.fin y) (.fin l) (.fin u) A.etaM (.fin r) ≠ .nan

theorem wp_moeadValue {v : MoeadEnv K σ} {rep : K → Prop} (hg : v.g.Lawful rep) {A : Moead K} {l u x a b : Fl K} {Q : Fl K → σ → Prop}
    {E : Exn → σ → Prop} {e : σ}
    (hq : ∀ w e', (w = x ∨ ∃ r t : K, 0 ≤ r ∧ r ≤ 1 ∧ 0 ≤ t ∧ t ≤ 1 ∧ ∃ w0 w1, w0 = v.op.add x (v.op.mul A.fac (v.op.sub a b)) ∧
      w1 = (if Fl.lt w0 l then v.op.add l (v.op.mul (.fin r) (v.op.sub x l)) else w0) ∧
      w = (if Fl.gt w1 u then v.op.sub u (v.op.mul (.fin t) (v.op.sub u x)) else w1)) → Q w e') :
    wp (moeadValue v A l u x a b) Q E e := by
  unfold moeadValue
  rw [wp_bind]
  refine Gen.wp_draw01 hg ?_
  intro r0 e _ _
  rw [wp_ite]
  refine ⟨fun _ => ?_, fun _ => hq _ _ (Or.inl rfl)⟩
  have high : ∀ (w0 w1 : Fl K) (r : K) (e : σ), w0 = v.op.add x (v.op.mul A.fac (v.op.sub a b)) → 0 ≤ r → r ≤ 1 →
      w1 = (if Fl.lt w0 l then v.op.add l (v.op.mul (.fin r) (v.op.sub x l)) else w0) → wp (moeadHigh v u x w1) Q E e := by
    intro w0 w1 r e h0 h1 h2 h3
    unfold moeadHigh
    rw [wp_ite]
    refine ⟨fun h => ?_, fun h => hq _ _ (Or.inr ⟨r, 0, h1, h2, le_rfl, zero_le_one, w0, w1, h0, h3, by rw [if_neg h]⟩)⟩
    rw [wp_bind]
    refine Gen.wp_draw01 hg ?_
    intro t e t1 t2
    exact hq _ _ (Or.inr ⟨r, t, h1, h2, t1, t2, w0, w1, h0, h3, by rw [if_pos h]⟩)
  rw [wp_bind]
  unfold moeadLow
  rw [wp_ite]
  refine ⟨fun h => ?_, fun h => high _ _ 0 _ rfl le_rfl zero_le_one (by rw [if_neg h])⟩
  rw [wp_bind]
  refine Gen.wp_draw01 hg ?_
  intro r e h1 h2
  exact high _ _ r _ rfl h1 h2 (by rw [if_pos h])

variable [FloorRing K]

/-- of the right size and, if `Num`, inside the bounds (integer components are treated as continuous) -/
def Made (Num : Prop) (P : AProb K) (x : List (Fl K)) : Prop := x.length = P.info.nx ∧ (Num → InBox P.lb P.ub 0 x)

/-- Differential evolution on one component: kept, or `x + F (a - b)`, put back between the bound that it violates and `x`. -/
def MoGene (v : MoeadEnv K σ) (A : Moead K) (l u x a b w : Fl K) : Prop :=
  w = x ∨ ∃ r t : K, 0 ≤ r ∧ r ≤ 1 ∧ 0 ≤ t ∧ t ≤ 1 ∧ ∃ w0 w1, w0 = v.op.add x (v.op.mul A.fac (v.op.sub a b)) ∧
    w1 = (if Fl.lt w0 l then v.op.add l (v.op.mul (.fin r) (v.op.sub x l)) else w0) ∧
    w = (if Fl.gt w1 u then v.op.sub u (v.op.mul (.fin t) (v.op.sub u x)) else w1)

/-- Polynomial mutation of one component: kept, or, if its bounds differ, mutated with a random number of [0, 1] and put
on the bound it violates. -/
def MoMut (v : MoeadEnv K σ) (A : Moead K) (l u y w : Fl K) : Prop :=
  w = y ∨ Fl.eq l u = false ∧ ∃ r : K, 0 ≤ r ∧ r ≤ 1 ∧ w = clamp l u (polyValue v.pw v.op y l u A.etaM (.fin r))

/-- `x` is a candidate for number `n`, made of the points `xs`: two different parents from `pool`, differential evolution of
number `n` with their difference, polynomial mutation of the result. -/
def CandOf (v : MoeadEnv K σ) (P : AProb K) (A : Moead K) (xs : List (List (Fl K))) (n : Nat) (pool : List Nat) (x : List (Fl K)) : Prop :=
  ∃ (p q : Nat) (xn a b y : List (Fl K)), p ∈ pool ∧ q ∈ pool ∧ p ≠ q ∧ xs[n]? = some xn ∧ xs[p]? = some a ∧ xs[q]? = some b ∧
    y.length = P.info.nx ∧ x.length = P.info.nx ∧
    (∀ (k : Nat) (l u xk ak bk yk : Fl K), P.lb[k]? = some l → P.ub[k]? = some u → xn[k]? = some xk → a[k]? = some ak → b[k]? = some bk →
      y[k]? = some yk → MoGene v A l u xk ak bk yk) ∧
    ∀ (k : Nat) (l u yk w : Fl K), P.lb[k]? = some l → P.ub[k]? = some u → y[k]? = some yk → x[k]? = some w → MoMut v A l u yk w

/-- Polynomial mutation without integer components: each component is mutated at most once. -/
theorem wp_polyImpl_once {g : Gen K σ} {rep : K → Prop} (hg : g.Lawful rep) {pw : Fl K → Fl K → Fl K} {op : Fl.Ops K}
    {x lb ub : List (Fl K)} {pM eta : Fl K} (hx : x.length = lb.length) (hlen : ub.length = lb.length) {E : Exn → σ → Prop} (s : σ) :
    Run.wp (polyImpl g pw op x lb ub 0 pM eta) (fun c _ => c.length = x.length ∧ ∀ (k : Nat) (l u y w : Fl K), lb[k]? = some l → ub[k]? = some u →
      x[k]? = some y → c[k]? = some w → w = y ∨ Fl.eq l u = false ∧ ∃ r : K, 0 ≤ r ∧ r ≤ 1 ∧ w = clamp l u (polyValue pw op y l u eta (.fin r))) E s := by
  unfold polyImpl
  simp only [Nat.sub_zero, Nat.sub_self]
  rw [Run.wp_bind]
  refine (Run.wp_range (E := E) (fun t (c : List (Fl K)) (_ : σ) => c.length = x.length ∧ (∀ k, t ≤ k → c[k]? = x[k]?) ∧
    ∀ (k : Nat) (l u y w : Fl K), lb[k]? = some l → ub[k]? = some u → x[k]? = some y → c[k]? = some w → w = y ∨ Fl.eq l u = false ∧ ∃ r : K, 0 ≤ r ∧ r ≤ 1 ∧
      w = clamp l u (polyValue pw op y l u eta (.fin r))) _ _ s
    ⟨rfl, fun _ _ => rfl, fun k l u y w _ _ h1 h2 => Or.inl (by rw [h1] at h2; cases h2; rfl)⟩ ?_).mono ?_ (fun _ _ h => h)
  · rintro j c s hj ⟨h1, h2, h3⟩
    have j1 : j < lb.length := by omega
    have j2 : j < ub.length := by omega
    have j3 : j < c.length := by omega
    unfold polyGene
    rw [Run.wp_bind, Run.wp_lift_get j1, Run.wp_bind, Run.wp_lift_get j2, Run.wp_bind, Run.wp_lift_get j3, Run.wp_bind]
    refine Gen.wp_draw01 hg ?_
    intro r s _ _
    rw [Run.wp_ite]
    refine ⟨fun hcond => ?_, fun _ => ⟨h1, fun k hk => h2 k (by omega), h3⟩⟩
    simp only [Bool.and_eq_true, Bool.not_eq_true'] at hcond
    rw [Run.wp_bind]
    refine Gen.wp_draw01 hg ?_
    intro r' s r0 r1
    rw [Run.wp_lift_set j3]
    refine ⟨by simpa using h1, fun k hk => ?_, fun k l u y w hl hu hy hw => ?_⟩
    · rw [List.getElem?_set_ne (by omega)]
      exact h2 k (by omega)
    · by_cases hk : k = j
      · subst hk
        rw [List.getElem?_set_self j3] at hw
        have := h2 k le_rfl
        rw [List.getElem?_eq_getElem j3, hy] at this
        rw [List.getElem?_eq_getElem j1] at hl
        rw [List.getElem?_eq_getElem j2] at hu
        cases hl; cases hu; cases hw
        rw [Option.some.inj this]
        exact Or.inr ⟨hcond.2, r', r0, r1, rfl⟩
      · rw [List.getElem?_set_ne (Ne.symm hk)] at hw
        exact h3 k l u y w hl hu hy hw
  · rintro c s ⟨h1, -, h3⟩
    exact ⟨h1, h3⟩

theorem wpn_moeadCandidate {v : MoeadEnv K σ} {rep : K → Prop} (hg : v.g.Lawful rep) {P : AProb K} (hP : SaneBounds P.lb P.ub P.nix)
    (hr : Reps rep P.lb P.ub) (hdim : P.info.nx = P.lb.length) {A : Moead K} {Num : Prop} (hN : Num → MoeadNum v A P.lb P.ub)
    {xs : List (List (Fl K))} {NP n : Nat} (hNP : xs.length = NP) (hx : ∀ x ∈ xs, Made Num P x) {neigh : List (List Nat)}
    (hn : NeighOk neigh NP) (hlt : n < NP) (h2 : 2 ≤ NP) (whole : Bool) (fuel : Nat) {E : Exn → σ → Prop} (e : σ) :
    wpn (StuckDraws v.g NP fuel) (moeadCandidate v P A xs neigh fuel n whole)
      (fun x _ => Made Num P x ∧ CandOf v P A xs n (poolOf neigh NP n whole) x) E e := by
  subst hNP
  unfold moeadCandidate
  rw [wpn_bind]
  refine (wpn_moeadParents (E := E) hg hn hlt h2 whole fuel e).mono ?_ (fun _ _ h => h)
  rintro _ e ⟨p, q, rfl, hpq, hp, hq⟩
  have hp' := (poolOf_ok hn hlt h2 whole).2.2 p hp
  have hq' := (poolOf_ok hn hlt h2 whole).2.2 q hq
  refine wpn_of_wp ?_
  rw [wp_bind, wp_lift_get (by simp), wp_bind, wp_lift_get (by simp), wp_bind, wp_lift_get hlt, wp_bind]
  show wp (Run.lift (Outcome.get xs p)) _ E e
  rw [wp_lift_get hp', wp_bind]
  show wp (Run.lift (Outcome.get xs q)) _ E e
  rw [wp_lift_get hq', wp_bind]
  have b0 := hx _ (List.getElem_mem hlt)
  have b1 := hx _ (List.getElem_mem hp')
  have b2 := hx _ (List.getElem_mem hq')
  have x0 := List.getElem?_eq_getElem hlt
  have x1 := List.getElem?_eq_getElem hp'
  have x2 := List.getElem?_eq_getElem hq'
  generalize xs[n] = x at b0 x0 ⊢
  generalize xs[p] = a at b1 x1 ⊢
  generalize xs[q] = b at b2 x2 ⊢
  have hlen := hP.len
  refine (wp_range (E := E) (fun t (c : List (Fl K)) (_ : σ) => c.length = P.info.nx ∧ (Num → ∀ (i : Nat) (l u w : Fl K), i < t → P.lb[i]? = some l →
    P.ub[i]? = some u → c[i]? = some w → l ≤ w ∧ w ≤ u) ∧ ∀ (i : Nat) (l u xk ak bk yk : Fl K), i < t → P.lb[i]? = some l → P.ub[i]? = some u →
      x[i]? = some xk → a[i]? = some ak → b[i]? = some bk → c[i]? = some yk → MoGene v A l u xk ak bk yk) P.info.nx _ e
    ⟨by simp, fun _ i l u w h => absurd h (by omega), fun i l u _ _ _ _ h => absurd h (by omega)⟩ ?_).mono ?_ (fun _ _ h => h)
  · rintro k c e hk ⟨hc, hc', hg'⟩
    unfold moeadGene
    have k1 : k < P.lb.length := by omega
    have k2 : k < P.ub.length := by omega
    have k3 : k < x.length := by rw [b0.1]; exact hk
    have k4 : k < a.length := by rw [b1.1]; exact hk
    have k5 : k < b.length := by rw [b2.1]; exact hk
    rw [wp_bind, wp_lift_get k1, wp_bind, wp_lift_get k2, wp_bind, wp_lift_get k3, wp_bind, wp_lift_get k4, wp_bind, wp_lift_get k5, wp_bind]
    refine wp_moeadValue hg ?_
    intro w e hw
    rw [wp_lift_set (by omega)]
    refine ⟨by simpa using hc, fun n i l u w' hi hl hu hw' => ?_, fun i l u xk ak bk yk hi hl hu h1 h2 h3 h4 => ?_⟩
    rotate_left
    · by_cases hik : i = k
      · subst hik
        rw [List.getElem?_set_self (by omega)] at h4
        rw [List.getElem?_eq_getElem k1] at hl
        rw [List.getElem?_eq_getElem k2] at hu
        rw [List.getElem?_eq_getElem k3] at h1
        rw [List.getElem?_eq_getElem k4] at h2
        rw [List.getElem?_eq_getElem k5] at h3
        cases hl; cases hu; cases h1; cases h2; cases h3; cases h4
        exact hw
      · rw [List.getElem?_set_ne (Ne.symm hik)] at h4
        exact hg' i l u xk ak bk yk (by omega) hl hu h1 h2 h3 h4
    by_cases hik : i = k
    · subst hik
      rw [List.getElem?_set_self (by omega)] at hw'
      cases hw'
      rw [List.getElem?_eq_getElem k1] at hl
      rw [List.getElem?_eq_getElem k2] at hu
      cases hl; cases hu
      have g0 := (b0.2 n).2 i _ _ _ (List.getElem?_eq_getElem k1) (List.getElem?_eq_getElem k2) (List.getElem?_eq_getElem k3)
      have g1 := (b1.2 n).2 i _ _ _ (List.getElem?_eq_getElem k1) (List.getElem?_eq_getElem k2) (List.getElem?_eq_getElem k4)
      have g2 := (b2.2 n).2 i _ _ _ (List.getElem?_eq_getElem k1) (List.getElem?_eq_getElem k2) (List.getElem?_eq_getElem k5)
      rcases hw with rfl | ⟨r, t, r1, r2, t1, t2, w0, w1, e0, e1, e2⟩
      · exact ⟨g0.1, g0.2.1⟩
      · obtain ⟨l', hl'⟩ := fin_of_finite ((hN n).finL _ (List.getElem_mem k1))
        obtain ⟨u', hu'⟩ := fin_of_finite ((hN n).finU _ (List.getElem_mem k2))
        rw [hl', hu'] at g0 g1 g2
        obtain ⟨x', hx', x1, x2⟩ := between_cases g0.1 g0.2.1
        obtain ⟨a', ha', a1, a2⟩ := between_cases g1.1 g1.2.1
        obtain ⟨b', hb', b1, b2⟩ := between_cases g2.1 g2.2.1
        rw [hl'] at e1 ⊢
        rw [hu'] at e2 ⊢
        rw [hx'] at e0 e1 e2
        rw [ha', hb'] at e0
        rw [e2]
        exact (hN n).cross l' u' x' a' b' r t x1 x2 a1 a2 b1 b2 r1 r2 t1 t2 w0 w1 e0 e1
    · rw [List.getElem?_set_ne (Ne.symm hik)] at hw'
      exact hc' n i l u w' (by omega) hl hu hw'
  · rintro c e ⟨hc, hc', hg'⟩
    have hP0 : SaneBounds P.lb P.ub 0 := ⟨hP.nonempty, hP.len, hP.ordered, by omega, fun i a h1 h2 => absurd (List.getElem?_eq_some_iff.mp h2).1 (by omega),
      fun i a h1 h2 => absurd (List.getElem?_eq_some_iff.mp h2).1 (by omega)⟩
    refine (wp_polyImpl hg (fun i w => Num → ∀ l u : Fl K, P.lb[i]? = some l → P.ub[i]? = some u → l ≤ w ∧ w ≤ u) ⟨by rw [← hdim]; exact hc, ?_⟩ hP0 hr ?_ ?_ e |>.and
      (wp_polyImpl_once (E := fun _ _ => True) hg (hc.trans hdim) hlen.symm e)).mono ?_ ?_
    · intro i w hw n l u hl hu
      exact hc' n i l u w (by rw [hdim]; exact (List.getElem?_eq_some_iff.mp hl).1) hl hu hw
    · intro i y l u r hi hy hl hu hr0 hr1 hne n l1 u1 hl1 hu1
      rw [hl] at hl1; rw [hu] at hu1; cases hl1; cases hu1
      obtain ⟨-, n2, hle⟩ := hP.ordered i l u hl hu
      obtain ⟨l', rfl⟩ := fin_of_finite ((hN n).finL l (List.mem_of_getElem? hl))
      obtain ⟨u', rfl⟩ := fin_of_finite ((hN n).finU u (List.mem_of_getElem? hu))
      obtain ⟨y', rfl, hy1, hy2⟩ := between_cases (hy n _ _ hl hu).1 (hy n _ _ hl hu).2
      have hlt : l' < u' := by
        have : l' ≠ u' := by rintro rfl; simp [Fl.eq] at hne
        exact lt_of_le_of_ne (by simpa using hle) this
      exact clamp_spec hle n2 ((hN n).poly l' u' y' r hlt hy1 hy2 hr0 hr1)
    · intro i l u w hi hl hu hw _ l' u' hl' hu'
      exact absurd (List.getElem?_eq_some_iff.mp hl).1 (by omega)
    · rintro w e ⟨hx, hm⟩
      refine ⟨⟨by rw [hdim]; exact hx.1, fun n => inBox0 hx.1 ?_⟩, p, q, x, a, b, c, hp, hq, hpq, x0, x1, x2, hc, hm.1.trans hc, ?_, hm.2⟩
      · intro i l u w hl hu hw
        exact hx.2 i w hw n l u hl hu
      · intro k l u xk ak bk yk hl
        exact hg' k l u xk ak bk yk (by rw [hdim]; exact (List.getElem?_eq_some_iff.mp hl).1) hl
    · rintro e s ⟨⟨-, i, h1, h2, -⟩, -⟩
      omega

end

/-! ## The ideal point -/

section
variable [Field K] [LinearOrder K]

/-- component by component the smaller number (`<` of doubles), the new one if neither is smaller -/
def NewIdeal (z f z' : List (Fl K)) : Prop :=
  z'.length = z.length ∧ f.length = z.length ∧ ∀ (j : Nat) (a b : Fl K), z[j]? = some a → f[j]? = some b → z'[j]? = some (if Fl.lt a b then a else b)

theorem fl_lt_irrefl (a : Fl K) : Fl.lt a a = false := by cases a <;> simp [Fl.lt]

theorem fl_lt_asymm {a b : Fl K} (h : Fl.lt a b = true) : Fl.lt b a = false := by cases a <;> cases b <;> simp_all [Fl.lt, le_of_lt]

theorem moeadIdeal_spec {nf : Nat} {f z : List (Fl K)} (hf : f.length = nf) (hz : z.length = nf) :
    (moeadIdeal nf f z).Sat (NewIdeal z f) := by
  unfold moeadIdeal
  refine (Outcome.range_sat (fun t (c : List (Fl K)) => c.length = nf ∧ (∀ j, t ≤ j → c[j]? = z[j]?) ∧
    ∀ (j : Nat) (a b : Fl K), j < t → z[j]? = some a → f[j]? = some b → c[j]? = some (if Fl.lt a b then a else b)) _ _
    ⟨hz, fun _ _ => rfl, fun j _ _ h => absurd h (by omega)⟩ ?_).bind ?_
  · rintro t c ht ⟨h1, h2, h3⟩
    unfold moeadMin
    rw [Outcome.get_of_lt (by omega), Outcome.bind_ok, Outcome.get_of_lt (by omega), Outcome.bind_ok, Outcome.set_of_lt (by omega), Outcome.sat_ok]
    refine ⟨by simpa using h1, fun j hj => ?_, fun j a b hj ha hb => ?_⟩
    · rw [List.getElem?_set_ne (by omega)]; exact h2 j (by omega)
    · by_cases hjt : j = t
      · subst hjt
        rw [List.getElem?_set_self (by omega)]
        have hc := h2 j le_rfl
        rw [ha, List.getElem?_eq_getElem (by omega)] at hc
        rw [List.getElem?_eq_getElem (by omega)] at hb
        cases hb
        have hc' : c[j] = a := by simpa using hc
        rw [hc', Fl.stdMin]
      · rw [List.getElem?_set_ne (Ne.symm hjt)]; exact h3 j a b (by omega) ha hb
  · rintro c ⟨h1, -, h3⟩
    refine (Outcome.range_sat (fun _ (d : List (Fl K)) => d = c) _ _ rfl ?_).mono ?_
    · rintro t d ht rfl
      unfold moeadMin2
      rw [Outcome.get_of_lt (by omega), Outcome.bind_ok, Outcome.get_of_lt (by omega), Outcome.bind_ok, Outcome.set_of_lt (by omega), Outcome.sat_ok]
      have e := h3 t z[t] f[t] (by omega) (List.getElem?_eq_getElem (by omega)) (List.getElem?_eq_getElem (by omega))
      rw [List.getElem?_eq_getElem (by omega)] at e
      have e' : d[t] = if Fl.lt z[t] f[t] then z[t] else f[t] := by simpa using e
      have hlt : Fl.lt f[t] d[t] = false := by
        rw [e']
        split
        · rename_i h; exact fl_lt_asymm h
        · exact fl_lt_irrefl _
      rw [Fl.stdMin, hlt, if_neg (by simp), List.set_getElem_self]
    · rintro d rfl
      exact ⟨h1.trans hz.symm, hf.trans hz.symm, fun j a b ha hb => h3 j a b (by have := (List.getElem?_eq_some_iff.mp ha).1; omega) ha hb⟩

/-! ## Insertion -/

/-- `a` is the decomposition of the objectives `f` for the weight `w` and the ideal point `z` -/
def DecIs (v : MoeadEnv K σ) (A : Moead K) (z w f : List (Fl K)) (a : Fl K) : Prop :=
  Dec.decomposeObjectives v.op v.sq v.eps v.theta f w z A.decomp = .ok [a]

/-- For the weight of number `i`, the decomposition of `f` is smaller than the one of the objectives of number `i`. -/
def MoBetter (v : MoeadEnv K σ) (A : Moead K) (W fs : List (List (Fl K))) (z f : List (Fl K)) (i : Nat) : Prop :=
  ∃ (w f0 : List (Fl K)) (a b : Fl K), W[i]? = some w ∧ fs[i]? = some f0 ∧ DecIs v A z w f0 a ∧ DecIs v A z w f b ∧ Fl.lt b a = true

/-- the three methods -/
def DecName (m : String) : Prop := m = "weighted" ∨ m = "tchebycheff" ∨ m = "bi"

theorem moeadBetter_spec [IsStrictOrderedRing K] {v : MoeadEnv K σ} {A : Moead K} (hm : DecName A.decomp) {W fs : List (List (Fl K))} {z f : List (Fl K)} {nf : Nat} (hnf : 0 < nf)
    (hW : ∀ w ∈ W, w.length = nf) (hfs : ∀ g ∈ fs, g.length = nf) (hz : z.length = nf) (hf : f.length = nf) {i : Nat} (h1 : i < W.length)
    (h2 : i < fs.length) : (moeadBetter v A W fs z f i).Sat (fun b => b = true ↔ MoBetter v A W fs z f i) := by
  have e1 := hW _ (List.getElem_mem h1)
  have e2 := hfs _ (List.getElem_mem h2)
  have hne : ∀ g : List (Fl K), g.length = nf → g ≠ [] := by rintro _ h rfl; simp at h; omega
  obtain ⟨a, ha⟩ := (C09_throws_iff v.op v.sq v.eps v.theta fs[i] W[i] z A.decomp).2 (e1.trans e2.symm) (hz.trans e2.symm) (hne _ e2) hm
  obtain ⟨b, hb⟩ := (C09_throws_iff v.op v.sq v.eps v.theta f W[i] z A.decomp).2 (e1.trans hf.symm) (hz.trans hf.symm) (hne _ hf) hm
  unfold moeadBetter
  rw [Outcome.get_of_lt h2, Outcome.bind_ok, Outcome.get_of_lt h1, Outcome.bind_ok, ha, Outcome.bind_ok, hb, Outcome.bind_ok,
    Outcome.get_of_lt (by simp), Outcome.bind_ok, Outcome.get_of_lt (by simp), Outcome.bind_ok, Outcome.sat_ok]
  constructor
  · intro h
    exact ⟨W[i], fs[i], a, b, List.getElem?_eq_getElem h1, List.getElem?_eq_getElem h2, ha, hb, by simpa using h⟩
  · rintro ⟨w, f0, a', b', hw, hf0, ha', hb', h⟩
    rw [List.getElem?_eq_getElem h1] at hw
    rw [List.getElem?_eq_getElem h2] at hf0
    cases hw; cases hf0
    rw [DecIs, ha] at ha'
    rw [DecIs, hb] at hb'
    cases ha'; cases hb'
    simpa using h

/-- The individuals `ps` of `p` (all of `pool`) were replaced by `(x, f)`, being worse; the others stayed. -/
structure Replaced (v : MoeadEnv K σ) (A : Moead K) (W : List (List (Fl K))) (z x f : List (Fl K)) (pool : List Nat) (p p' : Pop.State K)
    (ps : List Nat) : Prop where
  sub : ∀ i ∈ ps, i ∈ pool
  better : ∀ i ∈ ps, MoBetter v A W p.f z f i
  new : ∀ i ∈ ps, p'.x[i]? = some x ∧ p'.f[i]? = some f
  old : ∀ i, i ∉ ps → p'.x[i]? = p.x[i]? ∧ p'.f[i]? = p.f[i]?

theorem moBetter_congr {v : MoeadEnv K σ} {A : Moead K} {W fs fs' : List (List (Fl K))} {z f : List (Fl K)} {i : Nat} (h : fs[i]? = fs'[i]?) :
    MoBetter v A W fs z f i ↔ MoBetter v A W fs' z f i := by unfold MoBetter; rw [h]

theorem not_moBetter {v : MoeadEnv K σ} {A : Moead K} {W fs : List (List (Fl K))} {z f : List (Fl K)} {i : Nat} (h : fs[i]? = some f) :
    ¬ MoBetter v A W fs z f i := by
  rintro ⟨w, f0, a, b, -, hf, ha, hb, hlt⟩
  rw [h] at hf
  cases hf
  rw [DecIs, ha] at hb
  cases hb
  rw [fl_lt_irrefl] at hlt
  cases hlt

variable [IsStrictOrderedRing K]

/-- what the lemmas about the insertion need to know -/
structure InsArgs (P : AProb K) (A : Moead K) (W : List (List (Fl K))) (z x f : List (Fl K)) (NP : Nat) : Prop where
  nx : 0 < P.info.nx
  nobj : 0 < P.info.nobj
  meth : DecName A.decomp
  wlen : W.length = NP
  wdim : ∀ w ∈ W, w.length = P.info.nf
  zdim : z.length = P.info.nf
  xdim : x.length = P.info.nx
  fdim : f.length = P.info.nf

theorem wp_moeadTry {B : List (Fl K) → Prop} {v : MoeadEnv K σ} {P : AProb K} {A : Moead K} {W : List (List (Fl K))} {z x f : List (Fl K)} {NP : Nat}
    (ha : InsArgs P A W z x f NP) {s0 s1 s : St K σ} {new : List (ECall K)} (ht : TrackedBy B P s0 new s) (hNP : s.pop.id.length = NP) {pool ps : List Nat}
    (hr : Replaced v A W z x f pool s1.pop s.pop ps) {pick : Nat} (hpick : pick ∈ pool) (hlt : pick < NP)
    {Q : Nat → St K σ → Prop} {E : Exn → St K σ → Prop}
    (hq : ∀ s' ps', TrackedBy B P s0 new s' → Replaced v A W z x f pool s1.pop s'.pop ps' → (∀ i ∈ ps, i ∈ ps') →
      ps'.length ≤ ps.length + 1 → (MoBetter v A W s1.pop.f z f pick → pick ∈ ps') → Q ps'.length s')
    (he : ∀ e s', FailedBy B P s0 e s' → E e s') : wp (moeadTry v P A W z x f ps.length pick) Q E s := by
  unfold moeadTry
  rw [wp_bind, wp_get', wp_bind]
  have hfl : s.pop.f.length = NP := by rw [ht.inv.wf.fs, hNP]
  have hxl : s.pop.x.length = NP := by rw [ht.inv.wf.xs, hNP]
  obtain ⟨b, hb, hbi⟩ := moeadBetter_spec (v := v) ha.meth (fs := s.pop.f) (i := pick) (nf := P.info.nf)
    (by have := ha.nobj; unfold Info.nf; omega) ha.wdim ht.inv.wf.dimF ha.zdim ha.fdim (by rw [ha.wlen]; exact hlt) (by rw [hfl]; exact hlt)
  rw [hb, wp_lift_ok, wp_ite]
  constructor
  · intro hbt
    have hbet := hbi.mp hbt
    have hnp : pick ∉ ps := fun h => not_moBetter (hr.new pick h).2 hbet
    rw [wp_bind]
    refine wp_setXF_tracked (v := v.toEnv) ha.nx ha.nobj ht (by rw [hNP]; exact hlt) ha.xdim ha.fdim ?_ he
    intro s' ht' _ hx hf _
    rw [wp_pure]
    have := hq s' (ps ++ [pick]) ht' ?_ (fun i hi => by simp [hi]) (by simp) (fun _ => by simp)
    · simpa using this
    · refine ⟨fun i hi => ?_, fun i hi => ?_, fun i hi => ?_, fun i hi => ?_⟩
      · rcases List.mem_append.mp hi with hi | hi
        · exact hr.sub i hi
        · rw [List.mem_singleton.mp hi]; exact hpick
      · rcases List.mem_append.mp hi with hi | hi
        · exact hr.better i hi
        · rw [List.mem_singleton.mp hi]; exact (moBetter_congr (hr.old pick hnp).2).mp hbet
      · by_cases hip : i = pick
        · subst hip
          rw [hx, hf, List.getElem?_set_self (by omega), List.getElem?_set_self (by omega)]
          exact ⟨rfl, rfl⟩
        · rw [hx, hf, List.getElem?_set_ne (Ne.symm hip), List.getElem?_set_ne (Ne.symm hip)]
          exact hr.new i (by simpa [hip] using hi)
      · simp only [List.mem_append, List.mem_singleton, not_or] at hi
        rw [hx, hf, List.getElem?_set_ne (Ne.symm hi.2), List.getElem?_set_ne (Ne.symm hi.2)]
        exact hr.old i hi.1
  · intro hbf
    rw [wp_pure]
    refine hq s ps ht hr (fun _ h => h) (by omega) ?_
    intro hbet
    by_contra hnp
    exact hbf (hbi.mpr ((moBetter_congr (hr.old pick hnp).2).mpr hbet))

theorem wp_moeadSpread {B : List (Fl K) → Prop} {v : MoeadEnv K σ} {P : AProb K} {A : Moead K} {W : List (List (Fl K))} {z x f : List (Fl K)} {NP n : Nat}
    (ha : InsArgs P A W z x f NP) {neigh : List (List Nat)} (hn : NeighOk neigh NP) (hnlt : n < NP) (whole : Bool) {s0 s1 : St K σ} {new : List (ECall K)}
    {Q : Unit → St K σ → Prop} {E : Exn → St K σ → Prop} {pool : List Nat} (hsub : ∀ i ∈ poolOf neigh NP n whole, i ∈ pool)
    (he : ∀ e s', FailedBy B P s0 e s' → E e s') :
    ∀ (js ps : List Nat) (s : St K σ), (∀ j ∈ js, j < (poolOf neigh NP n whole).length) → TrackedBy B P s0 new s → s.pop.id.length = NP →
      Replaced v A W z x f pool s1.pop s.pop ps → (A.preserve = true → ps.length ≤ 1 ∨ ps.length < A.limit) →
      (∀ s' ps', TrackedBy B P s0 new s' → Replaced v A W z x f pool s1.pop s'.pop ps' → (∀ i ∈ ps, i ∈ ps') →
        (A.preserve = true → ps'.length ≤ max A.limit 2) → (∀ j ∈ js, ∀ i, (poolOf neigh NP n whole)[j]? = some i → MoBetter v A W s1.pop.f z f i →
          i ∈ ps' ∨ A.preserve = true ∧ A.limit ≤ ps'.length) → Q () s') →
      wp (moeadSpread v P A W neigh n whole z x f js ps.length) Q E s := by
  intro js
  induction js with
  | nil =>
    intro ps s _ ht _ hr hc hq
    rw [moeadSpread, wp_pure]
    exact hq s ps ht hr (fun _ h => h) (fun h => by rcases hc h with h | h <;> omega) (by simp)
  | cons j js ih =>
    intro ps s hjs ht hNP hr hc hq
    have hj := hjs j (by simp)
    have hpl : (poolOf neigh NP n whole)[j] < NP := by
      have hl : n < neigh.length := by rw [hn.len]; exact hnlt
      have hm := List.getElem_mem hj
      generalize (poolOf neigh NP n whole)[j] = i at hm ⊢
      unfold poolOf at hm
      cases whole with
      | true => simpa using hm
      | false =>
        have hgd : neigh.getD n [] = neigh[n] := by simp [List.getD, hl]
        simp only [Bool.false_eq_true, if_false, hgd] at hm
        exact (hn.two _ (List.getElem_mem hl)).2.2 i hm
    have hp : moeadPick neigh n whole j = .ok ((poolOf neigh NP n whole)[j]) := by
      have hl : n < neigh.length := by rw [hn.len]; exact hnlt
      unfold moeadPick
      cases whole with
      | true => simp [poolOf]
      | false =>
        have hgd : neigh.getD n [] = neigh[n] := by simp [List.getD, hl]
        have hj' : j < neigh[n].length := by simpa [poolOf, hgd, hl] using hj
        simp only [Bool.false_eq_true, if_false]
        rw [Outcome.get_of_lt hl, Outcome.bind_ok, Outcome.get_of_lt hj']
        simp [poolOf, hl]
    rw [moeadSpread, wp_bind, hp, wp_lift_ok, wp_bind]
    refine wp_moeadTry ha ht hNP hr (hsub _ (List.getElem_mem hj)) hpl ?_ he
    intro s' ps' ht' hr' hsub' hlen hin
    have hb : A.preserve = true → ps'.length ≤ max A.limit 2 := fun h => by rcases hc h with h | h <;> omega
    rw [wp_ite]
    constructor
    · rintro ⟨h1, h2⟩
      rw [wp_pure]
      exact hq s' ps' ht' hr' hsub' hb (fun _ _ _ _ _ => Or.inr ⟨h2, h1⟩)
    · intro hnb
      refine ih ps' s' (fun j h => hjs j (by simp [h])) ht' (by rw [ht'.id, ← ht.id]; exact hNP) hr' (fun h => ?_) ?_
      · exact Or.inr (by by_contra hl; exact hnb ⟨by omega, h⟩)
      · intro s2 ps2 ht2 hr2 hsub2 hb2 hd2
        refine hq s2 ps2 ht2 hr2 (fun i h => hsub2 i (hsub' i h)) hb2 ?_
        intro j' hj' i hi hbet
        rcases List.mem_cons.mp hj' with rfl | hj'
        · rw [List.getElem?_eq_getElem hj] at hi
          cases hi
          exact Or.inl (hsub2 _ (hin hbet))
        · exact hd2 j' hj' i hi hbet

/-- One candidate and what it does to the population. -/
structure Inserted (v : MoeadEnv K σ) (A : Moead K) (W : List (List (Fl K))) (z x f : List (Fl K)) (pool : List Nat) (p p' : Pop.State K) : Prop where
  some : ∃ ps, Replaced v A W z x f pool p p' ps ∧ (A.preserve = true → ps.length ≤ max A.limit 2) ∧
    ∀ i ∈ pool, MoBetter v A W p.f z f i → i ∈ ps ∨ A.preserve = true ∧ A.limit ≤ ps.length

theorem wp_moeadInsert {B : List (Fl K) → Prop} {v : MoeadEnv K σ} (hd : v.d.Lawful) {P : AProb K} {A : Moead K} {W : List (List (Fl K))} {z x f : List (Fl K)} {NP n : Nat}
    (ha : InsArgs P A W z x f NP) {neigh : List (List Nat)} (hn : NeighOk neigh NP) (hnlt : n < NP) (whole : Bool) {s0 s : St K σ} {new : List (ECall K)}
    (ht : TrackedBy B P s0 new s) (hNP : s.pop.id.length = NP)
    {Q : Unit → St K σ → Prop} {E : Exn → St K σ → Prop}
    (hq : ∀ s', TrackedBy B P s0 new s' → Inserted v A W z x f (n :: poolOf neigh NP n whole) s.pop s'.pop → Q () s')
    (he : ∀ e s', FailedBy B P s0 e s' → E e s') : wp (moeadInsert v P A W neigh NP n whole z x f) Q E s := by
  unfold moeadInsert
  rw [wp_bind]
  have hr0 : Replaced v A W z x f (n :: poolOf neigh NP n whole) s.pop s.pop [] := ⟨by simp, by simp, by simp, fun _ _ => ⟨rfl, rfl⟩⟩
  refine wp_moeadTry (ps := []) ha ht hNP hr0 (by simp) hnlt ?_ he
  intro s1 ps ht1 hr1 _ hl1 hin1
  have hl : n < neigh.length := by rw [hn.len]; exact hnlt
  have hsz : moeadSize neigh NP n whole = .ok (poolOf neigh NP n whole).length := by
    unfold moeadSize
    cases whole with
    | true => simp [poolOf]
    | false =>
      simp only [Bool.false_eq_true, if_false]
      rw [Outcome.get_of_lt hl, Outcome.bind_ok]
      simp [poolOf, hl]
  rw [wp_bind, hsz, wp_lift_ok, wp_bind, wp_onRng]
  refine wp_shuffle_perm hd ?_
  intro js e hp
  refine wp_moeadSpread (s0 := s0) (s1 := s) (new := new) (pool := n :: poolOf neigh NP n whole) ha hn hnlt whole (fun i h => List.mem_cons_of_mem _ h) he js ps _ (fun j hj => by simpa using hp.mem_iff.mp hj)
    (tracked_rng ht1 e) (by dsimp only; rw [ht1.id, ← ht.id]; exact hNP) hr1 (fun _ => Or.inl (by simpa using hl1)) ?_
  intro s2 ps2 ht2 hr2 hsub2 hb2 hd2
  refine hq s2 ht2 ⟨ps2, hr2, hb2, ?_⟩
  intro i hi hbet
  rcases List.mem_cons.mp hi with rfl | hi
  · exact Or.inl (hsub2 _ (hin1 hbet))
  · obtain ⟨j, hj, hji⟩ := List.getElem_of_mem hi
    exact hd2 j (hp.mem_iff.mpr (by simpa using hj)) i (by rw [List.getElem?_eq_getElem hj, hji]) hbet

end

/-! ## One candidate, one generation -/

/-- `R n` from one state to the next, for the `n` of a list -/
inductive Visits {α : Type} (R : Nat → α → α → Prop) : List Nat → α → α → Prop
  | refl (a : α) : Visits R [] a a
  | snoc {l : List Nat} {a b c : α} {n : Nat} : Visits R l a b → R n b c → Visits R (l ++ [n]) a c

theorem visits_append {α : Type} {R : Nat → α → α → Prop} {l l' : List Nat} {a b c : α} (h : Visits R l a b) (h' : Visits R l' b c) :
    Visits R (l ++ l') a c := by
  induction h' with
  | refl _ => simpa using h
  | snoc _ hr ih => rw [← List.append_assoc]; exact (ih h).snoc hr

section
variable [Field K] [LinearOrder K]

/-- What is done for number `n`: a candidate `x` is made (`CandOf`) and evaluated, the ideal point is updated, and the candidate
replaces individuals among number `n` and its neighbours, or (only with diversity preservation) anywhere. The triples are
the population, the evaluations so far and the ideal point. -/
def MoeadStep (v : MoeadEnv K σ) (P : AProb K) (A : Moead K) (W : List (List (Fl K))) (neigh : List (List Nat)) (NP n : Nat)
    (a b : Pop.State K × List (ECall K) × List (Fl K)) : Prop :=
  ∃ (whole : Bool) (x f : List (Fl K)), (whole = true → A.preserve = true) ∧ CandOf v P A a.1.x n (poolOf neigh NP n whole) x ∧
    b.2.1 = a.2.1 ++ [(x, .ok f)] ∧ b.1.id = a.1.id ∧
    NewIdeal a.2.2 f b.2.2 ∧ Inserted v A W b.2.2 x f (n :: poolOf neigh NP n whole) a.1 b.1

variable [IsStrictOrderedRing K] [FloorRing K]

theorem made_inserted {Num : Prop} {P : AProb K} {v : MoeadEnv K σ} {A : Moead K} {W : List (List (Fl K))} {z x f : List (Fl K)} {pool : List Nat}
    {p p' : Pop.State K} (h : Inserted v A W z x f pool p p') (hx : Made Num P x) (hp : ∀ y ∈ p.x, Made Num P y) : ∀ y ∈ p'.x, Made Num P y := by
  obtain ⟨ps, hr, -, -⟩ := h
  intro y hy
  obtain ⟨i, hi⟩ := List.getElem?_of_mem hy
  by_cases hip : i ∈ ps
  · rw [(hr.new i hip).1] at hi
    cases hi
    exact hx
  · rw [(hr.old i hip).1] at hi
    exact hp y (List.mem_of_getElem? hi)

theorem wpn_moeadOne {v : MoeadEnv K σ} {rep : K → Prop} (hg : v.g.Lawful rep) (hd : v.d.Lawful) {P : AProb K} (hP : SaneBounds P.lb P.ub P.nix)
    (hr : Reps rep P.lb P.ub) (hdim : P.info.nx = P.lb.length) (hobj : 0 < P.info.nobj) {A : Moead K} (hm : DecName A.decomp) {Num : Prop}
    (hN : Num → MoeadNum v A P.lb P.ub) {W : List (List (Fl K))} {neigh : List (List Nat)} {NP n : Nat} (hW : W.length = NP)
    (hWd : ∀ w ∈ W, w.length = P.info.nf) (hn : NeighOk neigh NP) (hlt : n < NP) (h2 : 2 ≤ NP) (fuel : Nat) {s0 s : St K σ} {new : List (ECall K)}
    {z : List (Fl K)} (hz : z.length = P.info.nf) (ht : TrackedBy (Made Num P) P s0 new s) (hNP : s.pop.id.length = NP) (hx : ∀ y ∈ s.pop.x, Made Num P y) :
    wpn (StuckDraws v.g NP fuel) (moeadOne v P A W neigh NP fuel z n)
      (fun z' s' => z'.length = P.info.nf ∧ (∃ new', TrackedBy (Made Num P) P s0 new' s') ∧ (∀ y ∈ s'.pop.x, Made Num P y) ∧
        MoeadStep v P A W neigh NP n (s.pop, s.evs, z) (s'.pop, s'.evs, z')) (FailedBy (Made Num P) P s0) s := by
  unfold moeadOne
  rw [wpn_bind, wpn_onRng]
  refine wpn_of_wp (Gen.wp_draw01 hg ?_)
  intro r e1 _ _
  dsimp only
  generalize hw : (!(Fl.lt (Fl.fin r) A.realb || !A.preserve)) = whole
  have hwp : whole = true → A.preserve = true := by
    rintro rfl
    cases hpres : A.preserve <;> simp_all
  rw [wpn_bind, wpn_get', wpn_bind, wpn_onRng]
  refine (wpn_moeadCandidate hg hP hr hdim hN (by rw [ht.inv.wf.xs]; exact hNP) hx hn hlt h2 whole fuel e1).mono ?_ (fun _ _ h => h)
  rintro x e2 ⟨hmx, hcand⟩
  refine wpn_of_wp ?_
  rw [wp_bind]
  refine wp_eval_by hmx.1 (tracked_rng (tracked_rng ht e1) e2) hmx ?_ (fun _ _ h => h)
  intro f s1 hf hpop _ ht1
  rw [wp_bind]
  obtain ⟨z', hz', hnew⟩ := moeadIdeal_spec hf hz
  rw [hz', wp_lift_ok, wp_bind]
  have ha : InsArgs P A W z' x f NP := ⟨by rw [hdim]; exact List.length_pos_iff.mpr hP.nonempty, hobj, hm, hW, hWd, hnew.1.trans hz, hmx.1, hf⟩
  refine wp_moeadInsert hd ha hn hlt whole ht1 (by rw [hpop]; exact hNP) ?_ (fun _ _ h => h)
  intro s2 ht2 hins
  rw [hpop] at hins
  rw [wp_pure]
  refine ⟨hnew.1.trans hz, ⟨_, ht2⟩, made_inserted hins hmx hx, whole, x, f, hwp, hcand, ?_, ?_, hnew, hins⟩
  · rw [ht2.evs, ht.evs, List.append_assoc]
  · rw [ht2.id, ht.id]

theorem wpn_moeadGen {v : MoeadEnv K σ} {rep : K → Prop} (hg : v.g.Lawful rep) (hd : v.d.Lawful) {P : AProb K} (hP : SaneBounds P.lb P.ub P.nix)
    (hr : Reps rep P.lb P.ub) (hdim : P.info.nx = P.lb.length) (hobj : 0 < P.info.nobj) {A : Moead K} (hm : DecName A.decomp) {Num : Prop}
    (hN : Num → MoeadNum v A P.lb P.ub) {W : List (List (Fl K))} {neigh : List (List Nat)} {NP : Nat} (hW : W.length = NP)
    (hWd : ∀ w ∈ W, w.length = P.info.nf) (hn : NeighOk neigh NP) (h2 : 2 ≤ NP) (fuel : Nat) {s0 s : St K σ} {new : List (ECall K)}
    {z : List (Fl K)} (hz : z.length = P.info.nf) (ht : TrackedBy (Made Num P) P s0 new s) (hNP : s.pop.id.length = NP) (hx : ∀ y ∈ s.pop.x, Made Num P y)
    {sh : List Nat} (hsh : sh.Perm (List.range NP)) (g : Nat) :
    wpn (StuckDraws v.g NP fuel) (moeadGen v P A W neigh NP fuel g (sh, z))
      (fun b s' => b.2 = false ∧ b.1.1.Perm (List.range NP) ∧ b.1.2.length = P.info.nf ∧ (∃ new', TrackedBy (Made Num P) P s0 new' s') ∧
        (∀ y ∈ s'.pop.x, Made Num P y) ∧ Visits (MoeadStep v P A W neigh NP) b.1.1 (s.pop, s.evs, z) (s'.pop, s'.evs, b.1.2)) (FailedBy (Made Num P) P s0) s := by
  unfold moeadGen
  rw [wpn_bind, wpn_onRng]
  refine wpn_of_wp (wp_shuffle_perm hd ?_)
  intro l e hl
  have hl' := hl.trans hsh
  dsimp only
  rw [wpn_bind]
  refine (wpn_foldlM (N := StuckDraws v.g NP fuel) (E := FailedBy (Made Num P) P s0)
    (fun p (z' : List (Fl K)) s' => z'.length = P.info.nf ∧ (∃ new', TrackedBy (Made Num P) P s0 new' s') ∧ (∀ y ∈ s'.pop.x, Made Num P y) ∧
      Visits (MoeadStep v P A W neigh NP) p (s.pop, s.evs, z) (s'.pop, s'.evs, z')) l z _ ?_ ?_).mono ?_ (fun _ _ h => h)
  · exact ⟨hz, ⟨new, tracked_rng ht e⟩, hx, .refl _⟩
  · rintro p n q z1 s1 rfl ⟨hz1, ⟨new1, ht1⟩, hx1, hv1⟩
    refine (wpn_moeadOne hg hd hP hr hdim hobj hm hN hW hWd hn (by simpa using hl'.mem_iff.mp (by simp : n ∈ p ++ n :: q)) h2 fuel hz1 ht1
      (by rw [ht1.id, ← ht.id]; exact hNP) hx1).mono ?_ (fun _ _ h => h)
    rintro z2 s2 ⟨h1, h2, h3, h4⟩
    exact ⟨h1, h2, h3, hv1.snoc h4⟩
  · rintro z1 s1 ⟨h1, h2, h3, h4⟩
    rw [wpn_pure]
    exact ⟨rfl, hl', h1, h2, h3, h4⟩

/-- The weights: on the simplex, one for each individual, or there are none with the method. -/
theorem wp_moeadWeights {v : MoeadEnv K σ} {rep : K → Prop} (hg : v.g.Lawful rep) (hsF : ValidSort v.srtF) {nf nw : Nat} (hnf : 2 ≤ nf) (h64 : nw < 2 ^ 64)
    {m : String} (hm : m = "random" ∨ m = "grid" ∨ m = "low discrepancy") {Q : List (List (Fl K)) → σ → Prop} {E : Exn → σ → Prop} {e : σ}
    (hq : ∀ W e', W.length = nw → (∀ w ∈ W, OnSimplex nf w) → Q W e')
    (he : ∀ x e', (nw < nf ∨ m = "grid" ∧ (¬ ∃ H, nw = gridSize nf H) ∨ m = "low discrepancy" ∧ 1601 < nf) → E x e') :
    wp (moeadWeights v nf nw m) Q E e := by
  have hu : ∀ i, 0 ≤ (v.g.real 0 1 (after01 v.g i e)).1 ∧ (v.g.real 0 1 (after01 v.g i e)).1 ≤ 1 := fun i => hg.real_mem 0 1 _ zero_le_one
  have key : ∀ u : Nat → K, (∀ i, 0 ≤ u i ∧ u i ≤ 1) →
      (Dec.decompositionWeights v.srtF u nf nw m).Sat (fun r => r.length = nw ∧ ∀ w ∈ r, OnSimplex nf w) ∨
      (∃ x, Dec.decompositionWeights v.srtF u nf nw m = .throws x) ∧
        (nw < nf ∨ m = "grid" ∧ (¬ ∃ H, nw = gridSize nf H) ∨ m = "low discrepancy" ∧ 1601 < nf) := by
    intro u hu
    by_cases hle : nw < nf
    · exact Or.inr ⟨⟨_, C10_invalid_throws v.srtF u nf nw m (Or.inl hle)⟩, Or.inl hle⟩
    · have hle' : nf ≤ nw := by omega
      rcases hm with rfl | rfl | rfl
      · exact Or.inl ((C10_random v.srtF hsF u hu nf nw hnf hle').mono fun r h => ⟨h.1, h.2.1⟩)
      · by_cases hH : ∃ H, nw = gridSize nf H
        · exact Or.inl (((C10_grid v.srtF u nf nw hnf hle' h64).1 hH).mono fun r h => ⟨h.1, h.2.1⟩)
        · exact Or.inr ⟨⟨_, (C10_grid v.srtF u nf nw hnf hle' h64).2 hH⟩, Or.inr (Or.inl ⟨rfl, hH⟩)⟩
      · by_cases h : nf ≤ 1601
        · exact Or.inl (((C10_low_discrepancy v.srtF hsF u nf nw hnf hle').1 h).mono fun r h => ⟨h.1, h.2.1⟩)
        · exact Or.inr ⟨(C10_low_discrepancy v.srtF hsF u nf nw hnf hle').2 (by omega), Or.inr (Or.inr ⟨rfl, by omega⟩)⟩
  unfold wp moeadWeights
  rcases key _ hu with ⟨r, hr, h1, h2⟩ | ⟨⟨x, hx⟩, hb⟩
  · rw [hr]; exact hq r _ h1 h2
  · rw [hx]; exact he x _ hb

end

end Verif.Props
