import Verif.Proof.Pso

/-!
# C91, C92: pso
-/

set_option autoImplicit false

namespace Verif.Props

open Verif Run Prob Pop Alg Rnd

variable {K σ : Type} [Field K] [LinearOrder K]

/-- A swarm: positions, velocities, the own best positions and fitnesses of the particles, their neighbours, and the
calls of the fitness function so far. -/
structure Swarm (K : Type) where
  xs : List (List (Fl K))
  vel : List (List (Fl K))
  bestX : List (List (Fl K))
  bestF : List (List (Fl K))
  nb : List (List Nat)
  evs : List (ECall K)

def swarm (c : PsoVars K) (s : St K σ) : Swarm K := ⟨c.xs, c.vel, c.lbX, c.lbfit, c.nb, s.evs⟩

/-- `b` is the own best position of a particle among the neighbours of a particle (gbest: of any particle). Without NaN
fitnesses (`Clean`) no neighbour has a better one. -/
def Attracts (Clean : Prop) (A : Pso K) (a : Swarm K) (nbp : List Nat) (b : List (Fl K)) : Prop :=
  ∃ (q : Nat) (f : List (Fl K)), (A.topology = 1 ∨ q ∈ nbp) ∧ a.bestX[q]? = some b ∧ a.bestF[q]? = some f ∧
    (Clean → ∀ (q' : Nat) (g : List (Fl K)), A.topology = 1 ∨ q' ∈ nbp → a.bestF[q']? = some g → NotAbove f g)

/-- The move of particle `p`: its velocity is changed by the formula of the variant, it flies, the point reached is
evaluated, and this is its new best unless the old one was better. -/
def PsoMove (Clean : Prop) (v : Env K σ) (P : AProb K) (A : Pso K) (p : Nat) (a b : Swarm K) : Prop :=
  ∃ (nbp : List Nat) (x w l g u y w' f fl : List (Fl K)), a.nb[p]? = some nbp ∧ a.xs[p]? = some x ∧ a.vel[p]? = some w ∧
    a.bestX[p]? = some l ∧ a.bestF[p]? = some fl ∧
    (A.variant ≠ 6 → Attracts Clean A a nbp g ∧ Pulled v.op A P.info.nx l x g w u) ∧
    (A.variant = 6 → PulledByAll v A P.info.nx nbp a.bestX x w u) ∧ Flown v.op P A x u y w' ∧
    b.xs = a.xs.set p y ∧ b.vel = a.vel.set p w' ∧ b.nb = a.nb ∧ b.evs = a.evs ++ [(y, .ok f)] ∧
    (StrictlyBelow fl f ∧ b.bestX = a.bestX ∧ b.bestF = a.bestF ∨
      ¬ StrictlyBelow fl f ∧ b.bestX = a.bestX.set p y ∧ b.bestF = a.bestF.set p f)

/-- Neighbours as they have to be for the velocities: particles of the swarm, and at least one if one is asked for. -/
structure Linked (A : Pso K) (n : Nat) (nb : List (List Nat)) : Prop where
  len : nb.length = n
  only : ∀ l ∈ nb, ∀ q ∈ l, q < n
  some : A.topology ≠ 1 ∨ A.variant = 6 → ∀ l ∈ nb, l ≠ []

/-- A random graph: everybody among its own neighbours, everybody in `k` places. -/
structure RandomGraph (n k : Nat) (nb : List (List Nat)) : Prop where
  len : nb.length = n
  self : ∀ (p : Nat) (l : List Nat), nb[p]? = some l → p ∈ l
  only : ∀ l ∈ nb, ∀ q ∈ l, q < n
  places : ∀ p : Nat, p < n → nb.flatten.count p = k

/-- One generation: every particle moves in turn. In the topology 4 the neighbours are chosen anew if no point of the
generation is as good as the best known before. -/
def PsoGeneration (Clean : Prop) (v : Env K σ) (P : AProb K) (A : Pso K) (n : Nat) (a b : Swarm K) : Prop :=
  ∃ (m : Swarm K) (new : List (ECall K)), Along (PsoMove Clean v P A) (List.range n) a m ∧ m.evs = a.evs ++ new ∧
    b = { m with nb := b.nb } ∧ (A.topology ≠ 4 → b.nb = m.nb) ∧ (A.topology = 4 → b.nb = m.nb ∨ RandomGraph n A.param b.nb) ∧
    (Clean → A.topology = 4 → (b.nb = m.nb ∧ ∃ (y f : List (Fl K)), (y, .ok f) ∈ new ∧ ∀ g ∈ a.bestF, NotAbove f g) ∨
      (RandomGraph n A.param b.nb ∧ ∀ (y f : List (Fl K)), (y, .ok f) ∈ new → ∃ g ∈ a.bestF, StrictlyBelow g f))

/-- the best fitness known, kept for the topologies 1 and 4 -/
structure BestKept (Clean : Prop) (A : Pso K) (c : PsoVars K) : Prop where
  is : A.topology = 1 ∨ A.topology = 4 → ∃ q : Nat, (A.topology = 1 → c.lbX[q]? = some c.bestX) ∧ c.lbfit[q]? = some c.bestF
  clean : Clean → ∀ f ∈ c.lbfit, Fl.nan ∉ f
  min : Clean → A.topology = 1 ∨ A.topology = 4 → ∀ g ∈ c.lbfit, NotAbove c.bestF g

/-- Every particle's best is the one it started with or a point evaluated for it (the evaluations go round the swarm);
without NaN it is not worse than any of them. -/
structure OwnBest (Clean : Prop) (n : Nat) (x0 f0 : List (List (Fl K))) (new : List (ECall K)) (xs fs : List (List (Fl K))) : Prop where
  one : ∀ (i : Nat) (x f : List (Fl K)), xs[i]? = some x → fs[i]? = some f →
    x0[i]? = some x ∧ f0[i]? = some f ∨ ∃ k : Nat, new[k * n + i]? = some (x, .ok f)
  first : Clean → ∀ (i : Nat) (f g : List (Fl K)), fs[i]? = some f → f0[i]? = some g → NotAbove f g
  later : Clean → ∀ (i k : Nat) (f y g : List (Fl K)), fs[i]? = some f → new[k * n + i]? = some (y, .ok g) → NotAbove f g

/-- invariant of the loops after `t` evaluations -/
structure PsoInv (Clean : Prop) (P : AProb K) (A : Pso K) (n : Nat) (s0 : St K σ) (t : Nat) (c : PsoVars K) (new : List (ECall K)) (s : St K σ) : Prop where
  tr : Tracked P s0 new s
  pop : s.pop = s0.pop
  cnt : new.length = t
  xs : Vecs n P.info.nx c.xs
  vel : Vecs n P.info.nx c.vel
  lbX : Vecs n P.info.nx c.lbX
  fitL : c.lbfit.length = n
  fit1 : ∀ f ∈ c.lbfit, f.length = 1
  nb : Linked A n c.nb
  best : BestKept Clean A c
  own : OwnBest Clean n s0.pop.x s0.pop.f new c.lbX c.lbfit

theorem vecLt_one {f g : List (Fl K)} (hf : f.length = 1) (hg : g.length = 1) : vecLt f g = true ↔ StrictlyBelow f g := by
  match f, g, hf, hg with
  | [a], [b], _, _ =>
    unfold StrictlyBelow
    simp only [vecLt, List.getElem?_cons_zero, Option.some.injEq, exists_and_left, exists_eq_left']
    cases Fl.lt a b <;> simp

theorem notAbove_iff {f g : List (Fl K)} (hf : f.length = 1) (hg : g.length = 1) (nf : Fl.nan ∉ f) (ng : Fl.nan ∉ g) :
    NotAbove f g ↔ ¬ StrictlyBelow g f := by
  match f, g, hf, hg with
  | [a], [b], _, _ =>
    unfold StrictlyBelow NotAbove
    simp only [List.mem_singleton] at nf ng
    simp only [List.getElem?_cons_zero, Option.some.injEq, exists_and_left, exists_eq_left']
    rw [Fl.le_iff (Ne.symm nf) (Ne.symm ng), Fl.lt_iff (Ne.symm ng) (Ne.symm nf), not_lt]

theorem notAbove_refl {f : List (Fl K)} (hf : f.length = 1) (nf : Fl.nan ∉ f) : NotAbove f f := by
  match f, hf with
  | [a], _ =>
    simp only [List.mem_singleton] at nf
    exact ⟨a, a, rfl, rfl, by rw [Fl.le_iff (Ne.symm nf) (Ne.symm nf)]⟩

section
variable [IsStrictOrderedRing K]

/-- the best neighbour -/
theorem psoBetter_all {n : Nat} {lbfit : List (List (Fl K))} (hL : lbfit.length = n) (h1 : ∀ f ∈ lbfit, f.length = 1) :
    ∀ (l : List Nat) (q : Nat), (∀ j ∈ l, j < n) → q < n →
      (l.foldlM (psoBetter lbfit) q).Sat (fun b => b < n ∧ (b = q ∨ b ∈ l) ∧
        ((∀ f ∈ lbfit, Fl.nan ∉ f) → ∀ j, j = q ∨ j ∈ l → ∀ f g, lbfit[b]? = some f → lbfit[j]? = some g → NotAbove f g)) := by
  intro l
  induction l with
  | nil =>
    intro q _ hq
    refine Outcome.sat_ok.mpr ⟨hq, Or.inl rfl, fun hc j hj f g hf hg => ?_⟩
    rcases hj with rfl | hj
    · rw [hf, Option.some.injEq] at hg
      subst hg
      have hm := List.mem_of_getElem? hf
      exact notAbove_refl (h1 f hm) (hc f hm)
    · exact absurd hj List.not_mem_nil
  | cons j l ih =>
    intro q hl hq
    have hj := hl j (by simp)
    have hjl : j < lbfit.length := by omega
    have hql : q < lbfit.length := by omega
    have e1 := h1 _ (List.getElem_mem hjl)
    have e2 := h1 _ (List.getElem_mem hql)
    rw [List.foldlM_cons]
    unfold psoBetter
    simp only [Outcome.get_of_lt hjl, Outcome.get_of_lt hql, Outcome.bind_ok]
    rw [Outcome.get_of_lt (by omega), Outcome.get_of_lt (by omega), Outcome.bind_ok, Outcome.bind_ok, Outcome.pure_eq, Outcome.bind_ok]
    have hcmp : ((∀ f ∈ lbfit, Fl.nan ∉ f) → ∀ f g, lbfit[if Fl.le (lbfit[j][0]'(by omega)) (lbfit[q][0]'(by omega)) then j else q]? = some f →
        (lbfit[q]? = some g ∨ lbfit[j]? = some g) → NotAbove f g) := by
      intro hc f g hf hg
      have nj := hc _ (List.getElem_mem hjl)
      have nq := hc _ (List.getElem_mem hql)
      rw [List.getElem?_eq_getElem hjl, List.getElem?_eq_getElem hql, Option.some.injEq, Option.some.injEq] at hg
      have njne : lbfit[j][0]'(by omega) ≠ .nan := fun h => nj (h ▸ List.getElem_mem _)
      have nqne : lbfit[q][0]'(by omega) ≠ .nan := fun h => nq (h ▸ List.getElem_mem _)
      by_cases hle : Fl.le (lbfit[j][0]'(by omega)) (lbfit[q][0]'(by omega)) = true
      · rw [if_pos hle, List.getElem?_eq_getElem hjl, Option.some.injEq] at hf
        subst hf
        rcases hg with rfl | rfl
        · exact ⟨_, _, List.getElem?_eq_getElem (by omega), List.getElem?_eq_getElem (by omega), hle⟩
        · exact notAbove_refl e1 nj
      · rw [if_neg hle, List.getElem?_eq_getElem hql, Option.some.injEq] at hf
        subst hf
        rcases hg with rfl | rfl
        · exact notAbove_refl e2 nq
        · refine ⟨_, _, List.getElem?_eq_getElem (by omega), List.getElem?_eq_getElem (by omega), ?_⟩
          rw [Fl.le_iff njne nqne, not_le] at hle
          rw [Fl.le_iff nqne njne]
          exact hle.le
    generalize hb : (if Fl.le (lbfit[j][0]'(by omega)) (lbfit[q][0]'(by omega)) then j else q) = b at hcmp
    have hbn : b < n := by rw [← hb]; split <;> assumption
    have hbm : b = q ∨ b = j := by rw [← hb]; split <;> simp
    refine (ih b (fun j' h => hl j' (by simp [h])) hbn).mono ?_
    rintro r ⟨g1, g2, g3⟩
    refine ⟨g1, ?_, fun hc j' hj' f g hf hg => ?_⟩
    · rcases g2 with rfl | h
      · rcases hbm with rfl | rfl
        · exact Or.inl rfl
        · exact Or.inr (by simp)
      · exact Or.inr (by simp [h])
    · rcases hj' with rfl | hj'
      · have hb' : lbfit[b]? = some (lbfit[b]'(by omega)) := List.getElem?_eq_getElem (by omega)
        exact notAbove_trans (g3 hc b (Or.inl rfl) f _ hf hb') (hcmp hc _ g hb' (Or.inl hg))
      · rcases List.mem_cons.mp hj' with rfl | hj'
        · have hb' : lbfit[b]? = some (lbfit[b]'(by omega)) := List.getElem?_eq_getElem (by omega)
          exact notAbove_trans (g3 hc b (Or.inl rfl) f _ hf hb') (hcmp hc _ g hb' (Or.inr hg))
        · exact g3 hc j' (Or.inr hj') f g hf hg

theorem psoLeader_ok {Clean : Prop} {P : AProb K} {A : Pso K} {n : Nat} {s0 : St K σ} {t : Nat} {c : PsoVars K} {new : List (ECall K)}
    {s : St K σ} (hi : PsoInv Clean P A n s0 t c new s) {p : Nat} (hp : p < n) {nbp : List Nat} (hnb : c.nb[p]? = some nbp) :
    (psoLeader A c p).Sat (fun b => (A.topology = 1 → b = c.bestX) ∧
      (A.variant ≠ 6 → (b.length = P.info.nx ∧ AllFin b) ∧ Attracts Clean A (swarm c s) nbp b)) := by
  unfold psoLeader
  have hfl := hi.fitL
  have hXl := hi.lbX.len
  by_cases h : A.topology ≠ 1 ∧ A.variant ≠ 6
  · rw [if_pos h]
    unfold psoBest
    have hpl : p < c.nb.length := by rw [hi.nb.len]; exact hp
    have e : c.nb[p] = nbp := by rw [List.getElem?_eq_getElem hpl] at hnb; exact Option.some.inj hnb
    have hne := hi.nb.some (Or.inl h.1) nbp (List.mem_of_getElem? hnb)
    have hon := hi.nb.only nbp (List.mem_of_getElem? hnb)
    obtain ⟨q, l, rfl⟩ := List.exists_cons_of_ne_nil hne
    rw [Outcome.get_of_lt hpl, Outcome.bind_ok, e, Outcome.get_of_lt (by simp), Outcome.bind_ok]
    obtain ⟨b, hb, b1, b2, b3⟩ := psoBetter_all hi.fitL hi.fit1 l q (fun j hj => hon j (by simp [hj])) (hon q (by simp))
    show (Outcome.bind _ _).Sat _
    rw [show ((q :: l).drop 1) = l from rfl, show (q :: l)[0] = q from rfl, hb]
    show (Outcome.get c.lbX b).Sat _
    rw [Outcome.get_of_lt (by omega), Outcome.sat_ok]
    refine ⟨fun h' => absurd h' h.1, fun _ => ⟨⟨hi.lbX.dim _ (List.getElem_mem _), hi.lbX.fin _ (List.getElem_mem _)⟩, b,
      c.lbfit[b]'(by omega), Or.inr ?_, List.getElem?_eq_getElem (l := c.lbX) (by omega), List.getElem?_eq_getElem (l := c.lbfit) (by omega), ?_⟩⟩
    · rcases b2 with rfl | h'
      · simp
      · simp [h']
    · intro hC q' g hq' hg
      rcases hq' with h' | hq'
      · exact absurd h' h.1
      · exact b3 (hi.best.clean hC) q' (List.mem_cons.mp hq') _ g (List.getElem?_eq_getElem (by omega)) hg
  · rw [if_neg h, Outcome.sat_ok]
    refine ⟨fun _ => rfl, fun h6 => ?_⟩
    have h1 : A.topology = 1 := by by_contra h'; exact h ⟨h', h6⟩
    obtain ⟨q, hq1, hq2⟩ := hi.best.is (Or.inl h1)
    have hm := List.mem_of_getElem? (hq1 h1)
    refine ⟨⟨hi.lbX.dim _ hm, hi.lbX.fin _ hm⟩, q, c.bestF, Or.inl h1, hq1 h1, hq2, ?_⟩
    intro hC q' g _ hg
    exact hi.best.min hC (Or.inl h1) g (List.mem_of_getElem? hg)

/-- the evaluations go round the swarm -/
theorem round_eq {n k p k' i : Nat} (hp : p < n) (hi : i < n) (h : k' * n + i = k * n + p) : i = p := by
  have h1 : (k' * n + i) % n = i := by rw [Nat.mul_comm, Nat.mul_add_mod, Nat.mod_eq_of_lt hi]
  have h2 : (k * n + p) % n = p := by rw [Nat.mul_comm, Nat.mul_add_mod, Nat.mod_eq_of_lt hp]
  rw [← h1, h, h2]

/-- What becomes of the flag and the best fitness known in a generation; `F0`: the own bests before it. -/
structure Improving (Clean : Prop) (A : Pso K) (F0 : List (List (Fl K))) (bf0 : List (Fl K)) (gen : List (ECall K)) (c : PsoVars K) : Prop where
  no : c.improved = false → A.topology = 4 → c.bestF = bf0 ∧ (Clean → ∀ (y f : List (Fl K)), (y, .ok f) ∈ gen → StrictlyBelow bf0 f)
  yes : c.improved = true → Clean → ∃ (y f : List (Fl K)), (y, .ok f) ∈ gen ∧ NotAbove f bf0

theorem wp_psoParticle {Clean : Prop} {v : Env K σ} {rep : K → Prop} (hg : v.g.Lawful rep) (hop : PsoOps v) {P : AProb K} (hP : FiniteBox P)
    (hnf : P.info.nf = 1) {A : Pso K} (hA : PsoPars A) {n : Nat} {s0 : St K σ}
    (hC : Clean → ∀ (h : List (ECall K)) (x f : List (Fl K)), P.fit h x = .ok f → Fl.nan ∉ f)
    {k p : Nat} {c : PsoVars K} {new : List (ECall K)} {s : St K σ} (hi : PsoInv Clean P A n s0 (k * n + p) c new s) (hp : p < n)
    {F0 : List (List (Fl K))} {bf0 : List (Fl K)} (hbf0 : Clean → A.topology = 1 ∨ A.topology = 4 → bf0.length = 1 ∧ Fl.nan ∉ bf0)
    (hb0 : Clean → A.topology = 1 ∨ A.topology = 4 → NotAbove c.bestF bf0) {gen : List (ECall K)}
    (him : Improving Clean A F0 bf0 gen c) :
    wp (psoParticle v P A c p) (fun c' s' => PsoMove Clean v P A p (swarm c s) (swarm c' s') ∧ ∃ e : ECall K,
      s'.evs = s.evs ++ [e] ∧ PsoInv Clean P A n s0 (k * n + p + 1) c' (new ++ [e]) s' ∧ Improving Clean A F0 bf0 (gen ++ [e]) c' ∧
      (Clean → A.topology = 1 ∨ A.topology = 4 → NotAbove c'.bestF bf0))
      (RunFailed P s0) s := by
  have hxl := hi.xs.len
  have hvl := hi.vel.len
  have hll := hi.lbX.len
  have hfl := hi.fitL
  have hnl := hi.nb.len
  unfold psoParticle
  rw [wp_bind, wp_onRng]
  unfold psoFly
  have hnbp : c.nb[p]? = some (c.nb[p]'(by omega)) := List.getElem?_eq_getElem (by omega)
  obtain ⟨b, hb, hb1, hb2⟩ := psoLeader_ok hi hp hnbp
  rw [hb, wp_bind, wp_lift_ok, wp_bind, wp_lift_get (by omega), wp_bind, wp_lift_get (by omega), wp_bind, wp_lift_get (by omega),
    wp_bind, wp_lift_get (by omega), wp_bind]
  have hxm := List.getElem_mem (l := c.xs) (n := p) (by omega)
  have hvm := List.getElem_mem (l := c.vel) (n := p) (by omega)
  have hlm := List.getElem_mem (l := c.lbX) (n := p) (by omega)
  have hnm := List.getElem_mem (l := c.nb) (n := p) (by omega)
  refine (wp_psoVel hg hop hA hi.lbX (hi.nb.only _ hnm) (fun h => hi.nb.some (Or.inr h) _ hnm) (hi.lbX.dim _ hlm) (hi.lbX.fin _ hlm)
    (hi.xs.dim _ hxm) (hi.xs.fin _ hxm) (fun h => (hb2 h).1) (hi.vel.dim _ hvm) (hi.vel.fin _ hvm) s.e).mono ?_ (fun _ _ h => h)
  rintro u e ⟨hul, huf, hpull, hall⟩
  obtain ⟨⟨y, w⟩, hyw, hbox, hwf, hfly⟩ := fly_ok hop hP hA (hi.xs.dim _ hxm) (hi.xs.fin _ hxm) hul huf
  rw [wp_bind, hyw, wp_lift_ok, wp_pure]
  dsimp only at hbox hwf hfly ⊢
  rw [wp_bind, wp_lift_set (by omega), wp_bind, wp_lift_set (by omega), wp_bind]
  refine wp_eval_tracked hP.nx (tracked_rng hi.tr e) hbox ?_ (fun _ _ h => h)
  intro f s1 hfl1 hpop _ ht
  rw [hnf] at hfl1
  have hevs : s1.evs = s.evs ++ [(y, .ok f)] := by rw [ht.evs, hi.tr.evs, List.append_assoc]
  have hold : (c.lbfit[p]'(by omega)).length = 1 := hi.fit1 _ (List.getElem_mem _)
  have hclean : Clean → Fl.nan ∉ f := by
    intro h
    obtain ⟨hh, e⟩ := ht.user (y, .ok f) (by simp)
    exact hC h hh y f e.symm
  have hoc : Clean → Fl.nan ∉ c.lbfit[p]'(by omega) := fun h => hi.best.clean h _ (List.getElem_mem _)
  have hyl : y.length = P.info.nx := hfly.1
  have hyf : AllFin y := allFin_of_box hP hbox
  have hidx : ∀ (j : Nat), (new ++ [(y, Except.ok f)])[j]? = if j < new.length then new[j]? else if j = new.length then some (y, .ok f) else none := by
    intro j
    by_cases h1 : j < new.length
    · rw [if_pos h1, List.getElem?_append_left h1]
    · rw [if_neg h1, List.getElem?_append_right (by omega)]
      by_cases h2 : j = new.length
      · rw [if_pos h2]; subst h2; simp
      · rw [if_neg h2, List.getElem?_eq_none (by simp; omega)]
  have hcnt := hi.cnt
  have own_old : ∀ (i : Nat) (x' f' : List (Fl K)), c.lbX[i]? = some x' → c.lbfit[i]? = some f' →
      s0.pop.x[i]? = some x' ∧ s0.pop.f[i]? = some f' ∨ ∃ k : Nat, (new ++ [(y, Except.ok f)])[k * n + i]? = some (x', .ok f') := by
    intro i x' f' h1 h2
    refine (hi.own.one i x' f' h1 h2).imp id ?_
    rintro ⟨k', hk'⟩
    refine ⟨k', ?_⟩
    rw [List.getElem?_append_left (List.getElem?_eq_some_iff.mp hk').1]; exact hk'
  have later_old : Clean → ∀ (i k' : Nat) (f' y' g : List (Fl K)), i < n → i ≠ p → c.lbfit[i]? = some f' →
      (new ++ [(y, Except.ok f)])[k' * n + i]? = some (y', .ok g) → NotAbove f' g := by
    intro hcl i k' f' y' g hin hip h1 h2
    rw [hidx] at h2
    split at h2
    · exact hi.own.later hcl i k' f' y' g h1 h2
    · split at h2
      · rename_i h3
        rw [hcnt] at h3
        exact absurd (round_eq hp hin h3) hip
      · exact absurd h2 (by simp)
  unfold psoKeep
  dsimp only
  rw [Outcome.get_of_lt (by omega), Outcome.bind_ok]
  by_cases hv : vecLt (c.lbfit[p]'(by omega)) f = false
  · have hns : ¬ StrictlyBelow (c.lbfit[p]'(by omega)) f := by
      rw [← vecLt_one hold hfl1]; simp [hv]
    have hfo : Clean → NotAbove f (c.lbfit[p]'(by omega)) := fun h => (notAbove_iff hfl1 hold (hclean h) (hoc h)).mpr hns
    rw [if_pos hv, Outcome.set_of_lt (by omega), Outcome.bind_ok, Outcome.set_of_lt (by omega), Outcome.bind_ok]
    have hmove : PsoMove Clean v P A p (swarm c s) ⟨c.xs.set p y, c.vel.set p w, c.lbX.set p y, c.lbfit.set p f, c.nb, s1.evs⟩ :=
      ⟨_, _, _, _, b, u, y, w, f, _, hnbp, List.getElem?_eq_getElem (l := c.xs) (by omega), List.getElem?_eq_getElem (l := c.vel) (by omega),
        List.getElem?_eq_getElem (l := c.lbX) (by omega), List.getElem?_eq_getElem (l := c.lbfit) (by omega), fun h6 => ⟨(hb2 h6).2, hpull h6⟩, hall, hfly, rfl, rfl, rfl,
        hevs, Or.inr ⟨hns, rfl, rfl⟩⟩
    have hfit1 : ∀ g ∈ c.lbfit.set p f, g.length = 1 := by
      intro g hg
      rcases List.mem_or_eq_of_mem_set hg with hg | rfl
      · exact hi.fit1 g hg
      · exact hfl1
    have hcl : Clean → ∀ g ∈ c.lbfit.set p f, Fl.nan ∉ g := by
      intro h g hg
      rcases List.mem_or_eq_of_mem_set hg with hg | rfl
      · exact hi.best.clean h g hg
      · exact hclean h
    have hown : OwnBest Clean n s0.pop.x s0.pop.f (new ++ [(y, .ok f)]) (c.lbX.set p y) (c.lbfit.set p f) := by
      refine ⟨?_, ?_, ?_⟩
      · intro i x' f' h1 h2
        rw [List.getElem?_set] at h1 h2
        by_cases e' : p = i
        · subst e'
          simp only [if_true, show p < c.lbX.length by omega, show p < c.lbfit.length by omega, Option.some.injEq] at h1 h2
          subst h1; subst h2
          refine Or.inr ⟨k, ?_⟩
          rw [hidx, if_neg (by omega), if_pos (by omega)]
        · rw [if_neg e'] at h1 h2
          exact own_old i x' f' h1 h2
      · intro hcl' i f' g h1 h2
        rw [List.getElem?_set] at h1
        by_cases e' : p = i
        · subst e'
          simp only [if_true, show p < c.lbfit.length by omega, Option.some.injEq] at h1
          subst h1
          exact notAbove_trans (hfo hcl') (hi.own.first hcl' p _ g (List.getElem?_eq_getElem (by omega)) h2)
        · rw [if_neg e'] at h1
          exact hi.own.first hcl' i f' g h1 h2
      · intro hcl' i k' f' y' g h1 h2
        rw [List.getElem?_set] at h1
        by_cases e' : p = i
        · subst e'
          simp only [if_true, show p < c.lbfit.length by omega, Option.some.injEq] at h1
          subst h1
          rw [hidx] at h2
          split at h2
          · exact notAbove_trans (hfo hcl') (hi.own.later hcl' p k' _ y' g (List.getElem?_eq_getElem (by omega)) h2)
          · split at h2
            · simp only [Option.some.injEq, Prod.mk.injEq, Except.ok.injEq] at h2
              rw [← h2.2]; exact notAbove_refl hfl1 (hclean hcl')
            · exact absurd h2 (by simp)
        · rw [if_neg e'] at h1
          exact later_old hcl' i k' f' y' g (by rw [← hfl]; exact (List.getElem?_eq_some_iff.mp h1).1) (Ne.symm e') h1 h2
    by_cases ht4 : (A.topology = 1 ∨ A.topology = 4) ∧ vecLt c.bestF f = false
    · rw [if_pos ht4, Outcome.pure_eq, wp_lift_ok]
      obtain ⟨q, hq1, hq2⟩ := hi.best.is ht4.1
      have hbf1 : c.bestF.length = 1 := hi.fit1 _ (List.mem_of_getElem? hq2)
      have hfb : Clean → NotAbove f c.bestF := by
        intro h
        rw [notAbove_iff hfl1 hbf1 (hclean h) (hi.best.clean h _ (List.mem_of_getElem? hq2)), ← vecLt_one hbf1 hfl1]
        simp [ht4.2]
      refine ⟨hmove, _, hevs, ⟨ht, hpop.trans hi.pop, by simp [hcnt], hi.xs.set hyl hyf, hi.vel.set hfly.2.1 hwf, hi.lbX.set hyl hyf,
        by simpa using hfl, hfit1, hi.nb, ⟨?_, hcl, ?_⟩, hown⟩, ⟨?_, ?_⟩, ?_⟩
      · intro _
        refine ⟨p, fun _ => ?_, ?_⟩
        · show (c.lbX.set p y)[p]? = some y
          rw [List.getElem?_set_self (by omega)]
        · show (c.lbfit.set p f)[p]? = some f
          rw [List.getElem?_set_self (by omega)]
      · intro h hto g hg
        rcases List.mem_or_eq_of_mem_set hg with hg | rfl
        · exact notAbove_trans (hfb h) (hi.best.min h hto g hg)
        · exact notAbove_refl hfl1 (hclean h)
      · intro h; exact absurd h (by simp)
      · intro _ h
        exact ⟨y, f, by simp, notAbove_trans (hfb h) (hb0 h ht4.1)⟩
      · intro h hto
        exact notAbove_trans (hfb h) (hb0 h hto)
    · rw [if_neg ht4, Outcome.pure_eq, wp_lift_ok]
      have hworse : A.topology = 1 ∨ A.topology = 4 → StrictlyBelow c.bestF f := by
        intro hto
        obtain ⟨q, hq1, hq2⟩ := hi.best.is hto
        rw [← vecLt_one (hi.fit1 _ (List.mem_of_getElem? hq2)) hfl1]
        by_contra h'
        exact ht4 ⟨hto, by simpa using h'⟩
      refine ⟨hmove, _, hevs, ⟨ht, hpop.trans hi.pop, by simp [hcnt], hi.xs.set hyl hyf, hi.vel.set hfly.2.1 hwf, hi.lbX.set hyl hyf,
        by simpa using hfl, hfit1, hi.nb, ⟨?_, hcl, ?_⟩, hown⟩, ⟨?_, ?_⟩, hb0⟩
      · intro hto
        obtain ⟨q, hq1, hq2⟩ := hi.best.is hto
        have hqp : p ≠ q := by
          rintro rfl
          rw [List.getElem?_eq_getElem (by omega), Option.some.injEq] at hq2
          rw [hq2] at hns
          exact hns (hworse hto)
        refine ⟨q, fun h1 => ?_, ?_⟩
        · show (c.lbX.set p y)[q]? = some b
          rw [List.getElem?_set_ne hqp, hq1 h1, hb1 h1]
        · show (c.lbfit.set p f)[q]? = some c.bestF
          rw [List.getElem?_set_ne hqp]; exact hq2
      · intro h hto g hg
        rcases List.mem_or_eq_of_mem_set hg with hg | rfl
        · exact hi.best.min h hto g hg
        · obtain ⟨a', b', ha', hb', hab⟩ := hworse hto
          exact ⟨a', b', ha', hb', lt_le hab⟩
      · intro him' h4
        obtain ⟨g1, g2⟩ := him.no him' h4
        refine ⟨g1, fun h y' f' hm => ?_⟩
        rcases List.mem_append.mp hm with hm | hm
        · exact g2 h y' f' hm
        · simp only [List.mem_singleton, Prod.mk.injEq, Except.ok.injEq] at hm
          rw [hm.2, ← g1]
          exact hworse (Or.inr h4)
      · intro h1 h2
        obtain ⟨y', f', hm, hle⟩ := him.yes h1 h2
        exact ⟨y', f', List.mem_append_left _ hm, hle⟩
  · have hvt : vecLt (c.lbfit[p]'(by omega)) f = true := by simpa using hv
    have hs : StrictlyBelow (c.lbfit[p]'(by omega)) f := (vecLt_one hold hfl1).mp hvt
    rw [if_neg hv, Outcome.pure_eq, wp_lift_ok]
    refine ⟨⟨_, _, _, _, b, u, y, w, f, _, hnbp, List.getElem?_eq_getElem (l := c.xs) (by omega), List.getElem?_eq_getElem (l := c.vel) (by omega),
        List.getElem?_eq_getElem (l := c.lbX) (by omega), List.getElem?_eq_getElem (l := c.lbfit) (by omega), fun h6 => ⟨(hb2 h6).2, hpull h6⟩, hall, hfly, rfl, rfl, rfl,
        hevs, Or.inl ⟨hs, rfl, rfl⟩⟩, _, hevs, ⟨ht, hpop.trans hi.pop, by simp [hcnt], hi.xs.set hyl hyf, hi.vel.set hfly.2.1 hwf, hi.lbX,
        hfl, hi.fit1, hi.nb, ⟨?_, hi.best.clean, hi.best.min⟩, ⟨own_old, hi.own.first, ?_⟩⟩, ⟨?_, ?_⟩, hb0⟩
    · intro hto
      obtain ⟨q, hq1, hq2⟩ := hi.best.is hto
      exact ⟨q, fun h1 => by show c.lbX[q]? = some b; rw [hq1 h1, hb1 h1], hq2⟩
    · intro hcl' i k' f' y' g h1 h2
      by_cases e' : p = i
      · subst e'
        rw [hidx] at h2
        split at h2
        · exact hi.own.later hcl' p k' f' y' g h1 h2
        · split at h2
          · simp only [Option.some.injEq, Prod.mk.injEq, Except.ok.injEq] at h2
            rw [List.getElem?_eq_getElem (l := c.lbfit) (by omega), Option.some.injEq] at h1
            rw [← h2.2, ← h1]
            obtain ⟨a', b', ha', hb', hab⟩ := hs
            exact ⟨a', b', ha', hb', lt_le hab⟩
          · exact absurd h2 (by simp)
      · exact later_old hcl' i k' f' y' g (by rw [← hfl]; exact (List.getElem?_eq_some_iff.mp h1).1) (Ne.symm e') h1 h2
    · intro him' h4
      obtain ⟨g1, g2⟩ := him.no him' h4
      refine ⟨g1, fun h y' f' hm => ?_⟩
      rcases List.mem_append.mp hm with hm | hm
      · exact g2 h y' f' hm
      · simp only [List.mem_singleton, Prod.mk.injEq, Except.ok.injEq] at hm
        rw [hm.2]
        have hle := hi.best.min h (Or.inr h4) _ (List.getElem_mem (l := c.lbfit) (n := p) (by omega))
        rw [g1] at hle
        obtain ⟨a1, a2, ha1, ha2, hle⟩ := hle
        obtain ⟨b1, b2, hb1', hb2', hlt⟩ := hs
        rw [hb1', Option.some.injEq] at ha2
        subst ha2
        refine ⟨a1, b2, ha1, hb2', ?_⟩
        rw [fl_le_iff] at hle
        have hb2n : b2 ≠ .nan := fun e' => hclean h (e' ▸ List.mem_of_getElem? hb2')
        rw [Fl.lt_iff hle.2.1 hb2n] at hlt
        rw [Fl.lt_iff hle.1 hb2n]
        exact lt_of_le_of_lt hle.2.2 hlt
    · intro h1 h2
      obtain ⟨y', f', hm, hle⟩ := him.yes h1 h2
      exact ⟨y', f', List.mem_append_left _ hm, hle⟩

/-- the neighbours of a topology -/
def RingGraph (n r : Nat) (nb : List (List Nat)) : Prop :=
  nb.length = n ∧ ∀ (p : Nat) (l : List Nat), nb[p]? = some l →
    ∀ q : Nat, q ∈ l ↔ q < n ∧ ∃ j : Nat, 1 ≤ j ∧ j ≤ r ∧ (AfterBy n p j q ∨ AfterBy n q j p)

def LatticeGraph (n : Nat) (nb : List (List Nat)) : Prop :=
  ∃ rows cols : Nat, rows * cols = n ∧ rows ≤ cols ∧ (∀ r c : Nat, r * c = n → r ≤ c → r ≤ rows) ∧ nb.length = n ∧
    ∀ x y : Nat, x < cols → y < rows → nb[cellAt cols x y]? =
      some [cellAt cols ((x + cols - 1) % cols) y, cellAt cols ((x + 1) % cols) y,
        cellAt cols x ((y + rows - 1) % rows), cellAt cols x ((y + 1) % rows)]

/-- The topologies at the beginning; in gbest only the fully informed variant needs neighbours, and these are all. -/
def StartGraph (A : Pso K) (n : Nat) (nb : List (List Nat)) : Prop :=
  (A.topology = 1 → A.variant = 6 → nb = List.replicate n (List.range n)) ∧
  (A.topology ≠ 1 → A.topology ≠ 3 → A.topology ≠ 4 → RingGraph n (A.param / 2) nb) ∧
  (A.topology = 3 → LatticeGraph n nb) ∧ (A.topology = 4 → RandomGraph n A.param nb)

/-- The radius of the ring fits into the swarm. -/
def RingFits (A : Pso K) (n : Nat) : Prop :=
  A.topology ≠ 1 → A.topology ≠ 3 → A.topology ≠ 4 → 2 ≤ A.param ∧ A.param / 2 ≤ n

theorem randomGraph_of {n k : Nat} {nb : List (List Nat)} (h1 : nb.length = n)
    (h2 : ∀ (p : Nat) (l : List Nat), nb[p]? = some l → p ∈ l ∧ ∀ q ∈ l, q < n)
    (h3 : ∀ p : Nat, nb.flatten.count p = if p < n then k else 0) : RandomGraph n k nb := by
  refine ⟨h1, fun p l h => (h2 p l h).1, ?_, fun p hp => by rw [h3, if_pos hp]⟩
  intro l hl
  obtain ⟨i, hi⟩ := List.mem_iff_getElem?.mp hl
  exact (h2 i l hi).2

theorem linked_random {A : Pso K} {n k : Nat} {nb : List (List Nat)} (h : RandomGraph n k nb) : Linked A n nb := by
  refine ⟨h.len, h.only, fun _ l hl e => ?_⟩
  obtain ⟨i, hi⟩ := List.mem_iff_getElem?.mp hl
  have := h.self i l hi
  rw [e] at this
  exact absurd this List.not_mem_nil

/-- the best of the population, as the champion of a swarm -/
theorem bestIdx_pso {srt : (Nat → Nat → Bool) → List Nat → List Nat} {sq : Fl K → Fl K} {P : Info} (hnobj : P.nobj = 1) (hnc : P.nc = 0)
    {fs : List (List (Fl K))} (hne : fs ≠ []) (hsz : fs.length ≤ 2 ^ 63) (h1 : ∀ f ∈ fs, f.length = 1) (tol : List (Fl K)) :
    ∃ i, bestIdx srt sq P fs tol = .ok i ∧ ∃ h : i < fs.length, ((∀ f ∈ fs, Fl.nan ∉ f) → ∀ g ∈ fs, NotAbove fs[i] g) := by
  obtain ⟨i, e, hi⟩ := (idx_lt (srt := srt) (sq := sq) hnobj hnc hne hsz tol).1
  refine ⟨i, e, hi, fun hn g hg => ?_⟩
  have hnf : P.nf = 1 := by simp only [Info.nf, Info.nc] at *; omega
  obtain ⟨j, f, e', hj, hmin⟩ := (C17_unconstrained_partial srt sq P hnobj hnc fs hne hsz (fun f hf => by rw [hnf]; exact h1 f hf) hn tol).1
  rw [e, Outcome.ok.injEq] at e'
  subst e'
  rw [List.getElem?_eq_getElem hi, Option.some.injEq] at hj
  rw [hj]
  have hm : f ∈ fs := hj ▸ List.getElem_mem hi
  rw [notAbove_iff (h1 f hm) (h1 g hg) (hn f hm) (hn g hg)]
  rintro ⟨a, b, ha, hb, hab⟩
  refine hmin g hg ⟨a, b, ha, hb, ?_⟩
  exact (Fl.lt_iff (fun e' => hn g hg (e' ▸ List.mem_of_getElem? ha)) (fun e' => hn f hm (e' ▸ List.mem_of_getElem? hb))).mp hab

theorem wp_psoTopology {Clean : Prop} {v : Env K σ} {rep : K → Prop} (hg : v.g.Lawful rep) {P : AProb K}
    (hnobj : P.info.nobj = 1) (hnc : P.info.nc = 0) {A : Pso K} (hA : PsoPars A) {s : St K σ} (hi : Inv P.info s.pop) (h0 : 0 < s.pop.id.length)
    (hsz : s.pop.id.length < 2 ^ 63) (hring : RingFits A s.pop.id.length) (hC : Clean → ∀ f ∈ s.pop.f, Fl.nan ∉ f)
    (V : List (List (Fl K))) {E : Exn → St K σ → Prop} :
    wp (psoTopology v P A s.pop.id.length) (fun t s' => s'.pop = s.pop ∧ s'.evs = s.evs ∧ StartGraph A s.pop.id.length t.1 ∧
      Linked A s.pop.id.length t.1 ∧ BestKept Clean A ⟨s.pop.x, V, s.pop.x, s.pop.f, t.1, t.2.1, t.2.2, false⟩) E s := by
  have hnf : P.info.nf = 1 := by simp only [Info.nf, Info.nc] at *; omega
  have hfs := hi.wf.fs
  have hxs := hi.wf.xs
  obtain ⟨b, hb, hbl, hmin⟩ := bestIdx_pso (srt := v.srt) (sq := v.sq) hnobj hnc (fs := s.pop.f)
    (by intro h; rw [h] at hfs; simp at hfs; omega) (by omega) (fun f hf => by rw [← hnf]; exact hi.wf.dimF f hf) s.pop.tol
  unfold psoTopology
  rw [wp_bind, wp_get]
  by_cases t1 : A.topology = 1
  · rw [if_pos t1, hb, wp_bind, wp_lift_ok, wp_bind, wp_lift_get (by omega), wp_bind, wp_lift_get hbl, wp_pure]
    refine ⟨rfl, rfl, ⟨fun _ h6 => by dsimp only; rw [if_pos h6], fun h => absurd t1 h, fun h => by omega, fun h => by omega⟩, ⟨by simp, ?_, ?_⟩, ⟨?_, hC, ?_⟩⟩
    · intro l hl q hq
      rw [(List.mem_replicate.mp hl).2] at hq
      split at hq
      · exact List.mem_range.mp hq
      · exact absurd hq List.not_mem_nil
    · rintro (h | h) l hl e
      · exact h t1
      · rw [(List.mem_replicate.mp hl).2, if_pos h] at e
        have := congrArg List.length e
        rw [List.length_range, List.length_nil] at this
        omega
    · exact fun _ => ⟨b, fun _ => List.getElem?_eq_getElem (l := s.pop.x) (by omega), List.getElem?_eq_getElem (l := s.pop.f) hbl⟩
    · exact fun h _ => hmin (hC h)
  rw [if_neg t1]
  by_cases t3 : A.topology = 3
  · obtain ⟨rows, cols, nb, e, g1, g2, g3, g4, g5, g6, g7⟩ := C90_lattice h0
    rw [if_pos t3, e, wp_bind, wp_lift_ok, wp_pure]
    refine ⟨rfl, rfl, ⟨fun h => absurd h t1, fun _ h => absurd t3 h, fun _ => ⟨rows, cols, g1, g2, g3, g4, g5⟩, fun h => by omega⟩, ⟨g4, ?_, ?_⟩, ⟨?_, hC, ?_⟩⟩
    · intro l hl q hq
      obtain ⟨p, hp⟩ := List.mem_iff_getElem?.mp hl
      have hp' := g6 p (by rw [← g4]; exact (List.getElem?_eq_some_iff.mp hp).1)
      obtain ⟨x, y, hx, hy, rfl⟩ := hp'
      rw [g5 x y hx hy, Option.some.injEq] at hp
      have hlt : ∀ x y, x < cols → y < rows → cellAt cols x y < s.pop.id.length := by
        intro x y hx hy
        rw [← g4]
        exact (List.getElem?_eq_some_iff.mp (g5 x y hx hy)).1
      rw [← hp] at hq
      simp only [List.mem_cons, List.not_mem_nil, or_false] at hq
      have m1 : ∀ z, z % cols < cols := fun z => Nat.mod_lt _ (by omega)
      have m2 : ∀ z, z % rows < rows := fun z => Nat.mod_lt _ (by omega)
      rcases hq with rfl | rfl | rfl | rfl
      · exact hlt _ _ (m1 _) hy
      · exact hlt _ _ (m1 _) hy
      · exact hlt _ _ hx (m2 _)
      · exact hlt _ _ hx (m2 _)
    · intro _ l hl e
      obtain ⟨p, hp⟩ := List.mem_iff_getElem?.mp hl
      obtain ⟨x, y, hx, hy, rfl⟩ := g6 p (by rw [← g4]; exact (List.getElem?_eq_some_iff.mp hp).1)
      rw [g5 x y hx hy, Option.some.injEq, e] at hp
      exact absurd hp (by simp)
    · intro h; rcases h with h | h <;> omega
    · intro _ h; rcases h with h | h <;> omega
  rw [if_neg t3]
  by_cases t4 : A.topology = 4
  · rw [if_pos t4, wp_bind, wp_onRng]
    refine (wp_psoRandom hg h0 hA.param s.e (E := fun e p => E e { s with e := p })).mono ?_ (fun _ _ h => h)
    rintro nb e ⟨g1, g2, g3⟩
    have hr := randomGraph_of g1 g2 g3
    rw [hb, wp_bind, wp_lift_ok, wp_bind, wp_lift_get hbl, wp_pure]
    refine ⟨rfl, rfl, ⟨fun h => absurd h t1, fun _ _ h => absurd t4 h, fun h => absurd h t3, fun _ => hr⟩, linked_random hr, ⟨?_, hC, ?_⟩⟩
    · exact fun _ => ⟨b, fun h => absurd h t1, List.getElem?_eq_getElem (l := s.pop.f) hbl⟩
    · exact fun h _ => hmin (hC h)
  · rw [if_neg t4, wp_pure]
    obtain ⟨q1, q2⟩ := hring t1 t3 t4
    obtain ⟨g1, g2, _⟩ := C90_ring_partial q1 q2 hsz
    refine ⟨rfl, rfl, ⟨fun h => absurd h t1, fun _ _ _ => ⟨g1, fun p l h => (g2 p l h).2.2⟩, fun h => absurd h t3, fun h => absurd h t4⟩, ⟨g1, ?_, ?_⟩, ⟨?_, hC, ?_⟩⟩
    · intro l hl q hq
      obtain ⟨p, hp⟩ := List.mem_iff_getElem?.mp hl
      exact (((g2 p l hp).2.2 q).mp hq).1
    · intro _ l hl
      obtain ⟨p, hp⟩ := List.mem_iff_getElem?.mp hl
      exact (g2 p l hp).1
    · intro h; rcases h with h | h <;> omega
    · intro _ h; rcases h with h | h <;> omega

theorem wp_psoGen {Clean : Prop} {v : Env K σ} {rep : K → Prop} (hg : v.g.Lawful rep) (hop : PsoOps v) {P : AProb K} (hP : FiniteBox P)
    (hnf : P.info.nf = 1) {A : Pso K} (hA : PsoPars A) {n : Nat} (hn : 0 < n) {s0 : St K σ}
    (hC : Clean → ∀ (h : List (ECall K)) (x f : List (Fl K)), P.fit h x = .ok f → Fl.nan ∉ f)
    {k g : Nat} {c : PsoVars K} {new : List (ECall K)} {s : St K σ} (hi : PsoInv Clean P A n s0 (k * n) c new s) :
    wp (psoGen v P A n g c) (fun r s' => r.2 = false ∧ PsoGeneration Clean v P A n (swarm c s) (swarm r.1 s') ∧
      ∃ new', PsoInv Clean P A n s0 ((k + 1) * n) r.1 new' s') (RunFailed P s0) s := by
  unfold psoGen
  rw [wp_bind]
  have hbf : A.topology = 1 ∨ A.topology = 4 → ∃ q : Nat, c.lbfit[q]? = some c.bestF := by
    intro h
    obtain ⟨q, _, hq⟩ := hi.best.is h
    exact ⟨q, hq⟩
  have hbf0 : Clean → A.topology = 1 ∨ A.topology = 4 → c.bestF.length = 1 ∧ Fl.nan ∉ c.bestF := by
    intro h ht
    obtain ⟨q, hq⟩ := hbf ht
    have hm := List.mem_of_getElem? hq
    exact ⟨hi.fit1 _ hm, hi.best.clean h _ hm⟩
  refine (wp_range (E := RunFailed P s0) (fun p c' s' => Along (PsoMove Clean v P A) (List.range p) (swarm c s) (swarm c' s') ∧
    ∃ gen : List (ECall K), s'.evs = s.evs ++ gen ∧ PsoInv Clean P A n s0 (k * n + p) c' (new ++ gen) s' ∧
      Improving Clean A c.lbfit c.bestF gen c' ∧ (Clean → A.topology = 1 ∨ A.topology = 4 → NotAbove c'.bestF c.bestF)) n _ s ?_ ?_).mono ?_
      (fun (e : Exn) s' (h : RunFailed P s0 e s') => h)
  · refine ⟨.nil _, [], by simp, ?_, ⟨fun _ _ => ⟨rfl, fun _ y f h => absurd h List.not_mem_nil⟩, fun h => absurd h (by simp)⟩, ?_⟩
    · rw [List.append_nil]
      exact ⟨hi.tr, hi.pop, hi.cnt, hi.xs, hi.vel, hi.lbX, hi.fitL, hi.fit1, hi.nb, ⟨hi.best.is, hi.best.clean, hi.best.min⟩, hi.own⟩
    · intro h ht
      exact notAbove_refl (hbf0 h ht).1 (hbf0 h ht).2
  · rintro p c' s' hp ⟨hAl, gen, he, hI, hIm, hle⟩
    refine (wp_psoParticle hg hop hP hnf hA hC hI hp hbf0 hle hIm).mono ?_ (fun _ _ h => h)
    rintro c2 s2 ⟨hM, e, he2, hI2, hIm2, hle2⟩
    refine ⟨?_, gen ++ [e], by rw [he2, he, List.append_assoc], ?_, hIm2, hle2⟩
    · rw [List.range_succ]; exact .snoc hAl hM
    · rw [← List.append_assoc]; exact hI2
  · rintro c1 s1 ⟨hAl, gen, he, hI, hIm, _⟩
    rw [wp_bind]
    unfold psoRewire
    have hk : k * n + n = (k + 1) * n := by rw [Nat.add_mul, Nat.one_mul]
    rw [hk] at hI
    by_cases hr : A.topology = 4 ∧ c1.improved = false
    · rw [if_pos hr, wp_bind, wp_onRng]
      refine (wp_psoRandom hg hn hA.param s1.e (E := fun e p => RunFailed P s0 e { s1 with e := p })).mono ?_ (fun _ _ h => h)
      rintro nb e ⟨g1, g2, g3⟩
      have hR := randomGraph_of g1 g2 g3
      rw [wp_pure, wp_pure]
      refine ⟨rfl, ⟨swarm c1 s1, gen, hAl, he, rfl, fun h => absurd hr.1 h, fun _ => Or.inr hR, fun h _ => Or.inr ⟨hR, ?_⟩⟩, new ++ gen, ?_⟩
      · intro y f hm
        obtain ⟨q, hq⟩ := hbf (Or.inr hr.1)
        exact ⟨c.bestF, List.mem_of_getElem? hq, (hIm.no hr.2 hr.1).2 h y f hm⟩
      · exact ⟨tracked_rng hI.tr e, hI.pop, hI.cnt, hI.xs, hI.vel, hI.lbX, hI.fitL, hI.fit1, linked_random hR,
          ⟨hI.best.is, hI.best.clean, hI.best.min⟩, hI.own⟩
    · rw [if_neg hr, wp_pure, wp_pure]
      refine ⟨rfl, ⟨swarm c1 s1, gen, hAl, he, rfl, fun _ => rfl, fun _ => Or.inl rfl, fun h h4 => Or.inl ⟨rfl, ?_⟩⟩, new ++ gen, hI⟩
      obtain ⟨y, f, hm, hle⟩ := hIm.yes (by by_contra h'; exact hr ⟨h4, by simpa using h'⟩) h
      exact ⟨y, f, hm, fun g' hg' => notAbove_trans hle (hi.best.min h (Or.inr h4) g' hg')⟩

theorem wp_psoCopyBack {v : Env K σ} {P : AProb K} (hnx : 0 < P.info.nx) (hnobj : P.info.nobj = 1) (hnc : P.info.nc = 0) {n : Nat} {s0 : St K σ}
    {c : PsoVars K} (hX : Vecs n P.info.nx c.lbX) (hF : c.lbfit.length = n) (hF1 : ∀ f ∈ c.lbfit, f.length = 1) {new : List (ECall K)}
    {s : St K σ} (ht : Tracked P s0 new s) (hlen : s.pop.id.length = n) :
    wp ((List.range n).foldlM (psoCopyBack v P c) ()) (fun _ s' => Tracked P s0 new s' ∧ s'.pop.x = c.lbX ∧ s'.pop.f = c.lbfit)
      (RunFailed P s0) s := by
  have hnf : P.info.nf = 1 := by simp only [Info.nf, Info.nc] at *; omega
  have hXl := hX.len
  refine (wp_range (E := RunFailed P s0) (fun i _ s' => Tracked P s0 new s' ∧
    (∀ j : Nat, j < i → s'.pop.x[j]? = c.lbX[j]? ∧ s'.pop.f[j]? = c.lbfit[j]?)) n () s ⟨ht, fun j h => by omega⟩ ?_).mono ?_
      (fun (e : Exn) s' (h : RunFailed P s0 e s') => h)
  · rintro i _ s' hin ⟨t, hj⟩
    have hidl : s'.pop.id.length = n := by rw [t.id, ← ht.id]; exact hlen
    have hxl := t.inv.wf.xs
    have hfl := t.inv.wf.fs
    unfold psoCopyBack
    rw [wp_bind, wp_lift_get (by omega), wp_bind, wp_lift_get (by omega)]
    refine wp_setXF_tracked hnx (by omega) t (by omega) (hX.dim _ (List.getElem_mem _)) (by rw [hnf]; exact hF1 _ (List.getElem_mem _)) ?_ (fun _ _ h => h)
    intro s2 t2 _ ex ef _
    refine ⟨t2, fun j hjl => ?_⟩
    rw [ex, ef, List.getElem?_set, List.getElem?_set]
    by_cases e : i = j
    · subst e
      simp only [if_true, show i < s'.pop.x.length by omega, show i < s'.pop.f.length by omega]
      exact ⟨(List.getElem?_eq_getElem _).symm, (List.getElem?_eq_getElem _).symm⟩
    · rw [if_neg e, if_neg e]
      exact hj j (by omega)
  · rintro _ s' ⟨t, hj⟩
    have hidl : s'.pop.id.length = n := by rw [t.id, ← ht.id]; exact hlen
    have hxl := t.inv.wf.xs
    have hfl := t.inv.wf.fs
    refine ⟨t, List.ext_getElem? (fun j => ?_), List.ext_getElem? (fun j => ?_)⟩
    · by_cases h : j < n
      · exact (hj j h).1
      · rw [List.getElem?_eq_none (by omega), List.getElem?_eq_none (by omega)]
    · by_cases h : j < n
      · exact (hj j h).2
      · rw [List.getElem?_eq_none (by omega), List.getElem?_eq_none (by omega)]

/-- Neither the population nor the fitness function has a NaN. -/
def NoNan (P : AProb K) (s : St K σ) : Prop :=
  (∀ (h : List (ECall K)) (x f : List (Fl K)), P.fit h x = .ok f → Fl.nan ∉ f) ∧ ∀ f ∈ s.pop.f, Fl.nan ∉ f

/-- What a run of pso has done. `V`: the velocities kept from an earlier run, `V'`: those kept for a later one. -/
structure PsoDone (v : Env K σ) (P : AProb K) (A : Pso K) (V : List (List (Fl K))) (s : St K σ) (V' : List (List (Fl K))) (s' : St K σ) : Prop where
  inv : Inv P.info s'.pop
  id : s'.pop.id = s.pop.id
  vel : Vecs s.pop.id.length P.info.nx V'
  run : ∃ (V0 : List (List (Fl K))) (nb0 nb : List (List Nat)) (xs : List (List (Fl K))),
    (A.memory = true → V.length = s.pop.id.length → V0 = V) ∧
    (A.memory = false ∨ V.length ≠ s.pop.id.length → ∀ w ∈ V0, ∀ d, d < P.info.nx →
      v.op.mul (.fin (-1)) (speed v.op P A d) ≤ comp w d ∧ comp w d ≤ speed v.op P A d) ∧
    StartGraph A s.pop.id.length nb0 ∧
    Steps (PsoGeneration (NoNan P s) v P A s.pop.id.length) A.gens ⟨s.pop.x, V0, s.pop.x, s.pop.f, nb0, s.evs⟩
      ⟨xs, V', s'.pop.x, s'.pop.f, nb, s'.evs⟩
  evals : ∃ new, s'.evs = s.evs ++ new ∧ new.length = A.gens * s.pop.id.length ∧ (∀ p ∈ new, InBox P.lb P.ub 0 p.1) ∧
    (∀ p ∈ new, ∃ h, p.2 = P.fit h p.1) ∧ OwnBest (NoNan P s) s.pop.id.length s.pop.x s.pop.f new s'.pop.x s'.pop.f

theorem pso_run {v : Env K σ} {rep : K → Prop} (hg : v.g.Lawful rep) (hop : PsoOps v) {P : AProb K} (hP : FiniteBox P)
    (hnobj : P.info.nobj = 1) (hnc : P.info.nc = 0) (hst : P.info.stochastic = false) {A : Pso K} (hA : PsoPars A)
    (hgens : A.gens + 1 < 2 ^ 32) {s : St K σ} (hi : Inv P.info s.pop) (h0 : 0 < s.pop.id.length)
    (hsz : s.pop.id.length < 2 ^ 63) (hx : ∀ x ∈ s.pop.x, AllFin x) (hring : RingFits A s.pop.id.length) {V : List (List (Fl K))}
    (hV : A.memory = true → V.length = s.pop.id.length → Vecs s.pop.id.length P.info.nx V) {fuel : Nat} (hfuel : A.gens < fuel) :
    wp (psoEvolve v P A fuel V) (fun V' s' => PsoDone v P A V s V' s') (RunFailed P s) s := by
  have hnf : P.info.nf = 1 := by simp only [Info.nf, Info.nc] at *; omega
  have hnx : 0 < P.info.nx := by
    rw [hP.nx]; exact List.length_pos_of_ne_nil hP.bounds.nonempty
  unfold psoEvolve
  rw [if_neg (by omega), if_neg (by omega), if_neg (by simp [hst]), wp_bind, wp_get, if_neg (by omega), wp_bind, wp_onRng]
  refine (wp_psoInitV hg hop hP hA hV (E := fun e p => RunFailed P s e { s with e := p }) s.e).mono ?_ (fun _ _ h => h)
  rintro V0 e ⟨hv1, hv2, hv3⟩
  rw [wp_bind]
  refine (wp_psoTopology (Clean := NoNan P s) (s := { s with e := e }) hg hnobj hnc hA hi h0 hsz hring (fun h => h.2) V0 (E := RunFailed P s)).mono ?_ (fun _ _ h => h)
  rintro ⟨nb0, bx, bf⟩ s1 ⟨hp1, he1, hS, hL, hB⟩
  dsimp only at hp1 he1 hS hL hB
  have hI0 : PsoInv (NoNan P s) P A s.pop.id.length s (0 * s.pop.id.length) ⟨s.pop.x, V0, s.pop.x, s.pop.f, nb0, bx, bf, false⟩ [] s1 := by
    refine ⟨?_, hp1, by simp, ⟨hi.wf.xs, hi.wf.dimX, hx⟩, hv1, ⟨hi.wf.xs, hi.wf.dimX, hx⟩, hi.wf.fs, fun f hf => by rw [← hnf]; exact hi.wf.dimF f hf,
      hL, hB, ⟨?_, ?_, ?_⟩⟩
    · exact ⟨by rw [hp1]; exact hi, by rw [hp1], by rw [hp1], by rw [he1]; simp, by simp, by simp, fun h => by rw [hp1]; exact h⟩
    · exact fun i x f h1 h2 => Or.inl ⟨h1, h2⟩
    · intro h i f g h1 h2
      rw [h1, Option.some.injEq] at h2
      subst h2
      have hm := List.mem_of_getElem? h1
      exact notAbove_refl (by rw [← hnf]; exact hi.wf.dimF f hm) (h.2 f hm)
    · intro h i k f y g h1 h2
      simp at h2
  rw [wp_bind]
  have key := wpn_genLoop (N := False) (body := psoGen v P A s.pop.id.length) hgens (E := RunFailed P s)
    (fun k c s' => Steps (PsoGeneration (NoNan P s) v P A s.pop.id.length) k ⟨s.pop.x, V0, s.pop.x, s.pop.f, nb0, s.evs⟩ (swarm c s') ∧
      ∃ new, PsoInv (NoNan P s) P A s.pop.id.length s (k * s.pop.id.length) c new s') ?_ fuel 0
    ⟨s.pop.x, V0, s.pop.x, s.pop.f, nb0, bx, bf, false⟩ s1 (by omega) (by omega) ?_
  · refine (wp_of_wpn key).mono ?_ (fun _ _ h => h)
    rintro c s2 ⟨hSt, new, hI⟩
    rw [wp_bind]
    refine (wp_psoCopyBack hnx hnobj hnc hI.lbX hI.fitL hI.fit1 hI.tr (by rw [hI.tr.id])).mono ?_ (fun _ _ h => h)
    rintro _ s3 ⟨t, ex, ef⟩
    rw [wp_pure]
    have hev : s3.evs = s2.evs := by rw [t.evs, hI.tr.evs]
    refine ⟨t.inv, t.id, hI.vel, ⟨V0, nb0, c.nb, c.xs, hv2, hv3, hS, ?_⟩, new, t.evs, hI.cnt, t.box, t.user, ?_⟩
    · rw [ex, ef, hev]; exact hSt
    · rw [ex, ef]; exact hI.own
  · rintro k c s2 hk ⟨hSt, new, hI⟩
    refine wpn_of_wp ((wp_psoGen hg hop hP hnf hA h0 (fun h => h.1) hI).mono ?_ (fun _ _ h => h))
    rintro r s3 ⟨hr, hG, new', hI'⟩
    exact ⟨hr, .snoc hSt hG, new', hI'⟩
  · refine ⟨?_, [], hI0⟩
    unfold swarm
    dsimp only
    rw [he1]
    exact .refl _

theorem psoOps_exact {v : Env K σ} (h : v.op = Fl.exact K) (hi : ∀ k : Nat, 0 < k → v.g.ofInt k ≠ 0) : PsoOps v where
  no := by rw [h]; exact noOverflow_exact
  zero := by rw [h]; rfl
  sub a b hab := ⟨b + -a, by linarith, by rw [h]; rfl⟩
  mul a b ha hb := ⟨a * b, mul_nonneg ha hb, by rw [h]; rfl⟩
  neg a ha := ⟨-1 * a, by linarith, by rw [h]; rfl⟩
  div a k hk := ⟨a / v.g.ofInt k, by
    rw [h]; show Fl.div (.fin a) (.fin (v.g.ofInt k)) = _
    simp only [Fl.div, if_neg (hi k hk)]⟩

/-- any monotone rounding that keeps 0 -/
theorem psoOps_rounded {v : Env K σ} {rnd : K → K} (h : v.op = Fl.rounded K rnd) (hm : Monotone rnd) (h0 : rnd 0 = 0)
    (hi : ∀ k : Nat, 0 < k → v.g.ofInt k ≠ 0) : PsoOps v where
  no := by rw [h]; exact noOverflow_rounded rnd
  zero := by rw [h]; rfl
  sub a b hab := ⟨rnd (b + -a), by rw [← h0]; exact hm (by linarith), by rw [h]; rfl⟩
  mul a b ha hb := ⟨rnd (a * b), by rw [← h0]; exact hm (mul_nonneg ha hb), by rw [h]; rfl⟩
  neg a ha := ⟨rnd (-1 * a), by rw [← h0]; exact hm (by linarith), by rw [h]; rfl⟩
  div a k hk := ⟨rnd (a / v.g.ofInt k), by
    rw [h]; show Fl.post rnd (Fl.div (.fin a) (.fin (v.g.ofInt k))) = _
    simp only [Fl.div, if_neg (hi k hk), Fl.post]⟩

/-- C91, the constructor: of numbers, it takes exactly those in the documented ranges, and throws for all others. -/
theorem C91_ctor (gens : Nat) (o e1 e2 m : K) (variant topology param : Nat) (memory : Bool) :
    (0 ≤ o ∧ o ≤ 1 ∧ 0 ≤ e1 ∧ e1 ≤ 4 ∧ 0 ≤ e2 ∧ e2 ≤ 4 ∧ 0 < m ∧ m ≤ 1 ∧ 1 ≤ variant ∧ variant ≤ 6 ∧ 1 ≤ topology ∧ topology ≤ 4 ∧ 1 ≤ param →
      psoCtor gens (.fin o) (.fin e1) (.fin e2) (.fin m) variant topology param memory =
        .ok ⟨gens, .fin o, .fin e1, .fin e2, .fin m, variant, topology, param, memory⟩) ∧
    (¬ (0 ≤ o ∧ o ≤ 1 ∧ 0 ≤ e1 ∧ e1 ≤ 4 ∧ 0 ≤ e2 ∧ e2 ≤ 4 ∧ 0 < m ∧ m ≤ 1 ∧ 1 ≤ variant ∧ variant ≤ 6 ∧ 1 ≤ topology ∧ topology ≤ 4 ∧ 1 ≤ param) →
      psoCtor gens (.fin o) (.fin e1) (.fin e2) (.fin m) variant topology param memory = .throws .invalidArgument) := by
  have hl : ∀ a b : K, (Fl.lt (.fin a) (.fin b) = true ↔ a < b) := fun a b => by rw [Fl.lt_iff (by simp) (by simp)]; simp
  have hle : ∀ a b : K, (Fl.le (.fin a) (.fin b) = true ↔ a ≤ b) := fun a b => by rw [Fl.le_iff (by simp) (by simp)]; simp
  unfold psoCtor
  simp only [Fl.gt, Bool.or_eq_true, hl, hle]
  constructor
  · rintro ⟨h1, h2, h3, h4, h5, h6, h7, h8, h9, h10, h11, h12, h13⟩
    rw [if_neg (by push Not; exact ⟨h1, h2⟩), if_neg (by push Not; exact ⟨⟨⟨h3, h5⟩, h4⟩, h6⟩), if_neg (by push Not; exact ⟨h7, h8⟩),
      if_neg (by omega), if_neg (by omega), if_neg (by omega)]
  · intro h
    by_contra hne
    refine h ?_
    by_cases c1 : o < 0 ∨ 1 < o
    · rw [if_pos c1] at hne; exact absurd rfl hne
    rw [if_neg c1] at hne
    by_cases c2 : ((e1 < 0 ∨ e2 < 0) ∨ 4 < e1) ∨ 4 < e2
    · rw [if_pos c2] at hne; exact absurd rfl hne
    rw [if_neg c2] at hne
    by_cases c3 : m ≤ 0 ∨ 1 < m
    · rw [if_pos c3] at hne; exact absurd rfl hne
    rw [if_neg c3] at hne
    by_cases c4 : variant < 1 ∨ variant > 6
    · rw [if_pos c4] at hne; exact absurd rfl hne
    rw [if_neg c4] at hne
    by_cases c5 : topology < 1 ∨ topology > 4
    · rw [if_pos c5] at hne; exact absurd rfl hne
    rw [if_neg c5] at hne
    by_cases c6 : param < 1
    · rw [if_pos c6] at hne; exact absurd rfl hne
    push Not at c1 c2 c3
    exact ⟨c1.1, c1.2, c2.1.1.1, c2.1.2, c2.1.1.2, c2.2, c3.1, c3.2, by omega, by omega, by omega, by omega, by omega⟩

/-- the parameters of an algorithm the constructor has made from numbers -/
theorem psoPars_of {gens : Nat} {o e1 e2 m : K} {variant topology param : Nat} {memory : Bool} {A : Pso K}
    (h : psoCtor gens (.fin o) (.fin e1) (.fin e2) (.fin m) variant topology param memory = .ok A) : PsoPars A := by
  obtain ⟨h1, h2⟩ := C91_ctor gens o e1 e2 m variant topology param memory
  by_cases c : 0 ≤ o ∧ o ≤ 1 ∧ 0 ≤ e1 ∧ e1 ≤ 4 ∧ 0 ≤ e2 ∧ e2 ≤ 4 ∧ 0 < m ∧ m ≤ 1 ∧ 1 ≤ variant ∧ variant ≤ 6 ∧ 1 ≤ topology ∧ topology ≤ 4 ∧ 1 ≤ param
  · rw [h1 c, Outcome.ok.injEq] at h
    subst h
    exact ⟨⟨_, rfl⟩, ⟨_, rfl⟩, ⟨_, rfl⟩, ⟨_, c.2.2.2.2.2.2.1.le, rfl⟩, c.2.2.2.2.2.2.2.2.2.2.2.2⟩
  · rw [h2 c] at h; cases h

/-- C91. A run of pso: the swarm starts at the individuals, with velocities within the limits (or those of the run before)
and the neighbours of the topology. In each of the generations every particle in turn changes its velocity by the formula of the
variant, flies, and is evaluated within the bounds. The population returned are the own bests of the particles.
Missing: NaN parameters, the topology lbest with too small or too large `neighb_param`, velocities remembered from
another problem; the claim is false there. -/
theorem C91_evolve_partial (v : Env K σ) (rep : K → Prop) (hg : v.g.Lawful rep) (hop : PsoOps v) (P : AProb K) (hP : FiniteBox P)
    (hnobj : P.info.nobj = 1) (hnc : P.info.nc = 0) (hst : P.info.stochastic = false) (gens : Nat) (o e1 e2 m : K)
    (variant topology param : Nat) (memory : Bool) (A : Pso K)
    (hA : psoCtor gens (.fin o) (.fin e1) (.fin e2) (.fin m) variant topology param memory = .ok A)
    (hgens : A.gens + 1 < 2 ^ 32) (s : St K σ) (hi : Inv P.info s.pop) (h0 : 0 < s.pop.id.length)
    (hsz : s.pop.id.length < 2 ^ 63) (hx : ∀ x ∈ s.pop.x, AllFin x) (hring : RingFits A s.pop.id.length) (V : List (List (Fl K)))
    (hV : A.memory = true → V.length = s.pop.id.length → Vecs s.pop.id.length P.info.nx V) (fuel : Nat) (hfuel : A.gens < fuel) :
    wp (psoEvolve v P A fuel V) (fun V' s' => PsoDone v P A V s V' s') (RunFailed P s) s :=
  pso_run hg hop hP hnobj hnc hst (psoPars_of hA) hgens hi h0 hsz hx hring hV hfuel

/-- C92. Without NaN, what a run returns for an individual is at least as good as the individual given and as all points
evaluated for it, and it is one of these. Missing: NaN fitnesses, for which it is false. -/
theorem C92_best_partial (v : Env K σ) (rep : K → Prop) (hg : v.g.Lawful rep) (hop : PsoOps v) (P : AProb K) (hP : FiniteBox P)
    (hnobj : P.info.nobj = 1) (hnc : P.info.nc = 0) (hst : P.info.stochastic = false) (gens : Nat) (o e1 e2 m : K)
    (variant topology param : Nat) (memory : Bool) (A : Pso K)
    (hA : psoCtor gens (.fin o) (.fin e1) (.fin e2) (.fin m) variant topology param memory = .ok A)
    (hgens : A.gens + 1 < 2 ^ 32) (s : St K σ) (hi : Inv P.info s.pop) (h0 : 0 < s.pop.id.length)
    (hsz : s.pop.id.length < 2 ^ 63) (hx : ∀ x ∈ s.pop.x, AllFin x) (hring : RingFits A s.pop.id.length) (V : List (List (Fl K)))
    (hV : A.memory = true → V.length = s.pop.id.length → Vecs s.pop.id.length P.info.nx V) (fuel : Nat) (hfuel : A.gens < fuel)
    (hn1 : ∀ (h : List (ECall K)) (x f : List (Fl K)), P.fit h x = .ok f → Fl.nan ∉ f) (hn2 : ∀ f ∈ s.pop.f, Fl.nan ∉ f) :
    wp (psoEvolve v P A fuel V) (fun _ s' => ∃ new, s'.evs = s.evs ++ new ∧ new.length = A.gens * s.pop.id.length ∧
      ∀ (i : Nat) (x f : List (Fl K)), s'.pop.x[i]? = some x → s'.pop.f[i]? = some f →
        (s.pop.x[i]? = some x ∧ s.pop.f[i]? = some f ∨ ∃ k : Nat, k < A.gens ∧ new[k * s.pop.id.length + i]? = some (x, .ok f)) ∧
        (∀ g : List (Fl K), s.pop.f[i]? = some g → NotAbove f g) ∧
        (∀ (k : Nat) (y g : List (Fl K)), new[k * s.pop.id.length + i]? = some (y, .ok g) → NotAbove f g)) (RunFailed P s) s := by
  refine (pso_run hg hop hP hnobj hnc hst (psoPars_of hA) hgens hi h0 hsz hx hring hV hfuel).mono ?_ (fun _ _ h => h)
  rintro V' s' hd
  obtain ⟨new, he, hl, _, _, hO⟩ := hd.evals
  refine ⟨new, he, hl, fun i x f h1 h2 => ⟨?_, fun g hg' => hO.first ⟨hn1, hn2⟩ i f g h2 hg', fun k y g hk => hO.later ⟨hn1, hn2⟩ i k f y g h2 hk⟩⟩
  refine (hO.one i x f h1 h2).imp id ?_
  rintro ⟨k, hk⟩
  refine ⟨k, ?_, hk⟩
  have hlt := (List.getElem?_eq_some_iff.mp hk).1
  rw [hl] at hlt
  exact Nat.lt_of_mul_lt_mul_right (lt_of_le_of_lt (Nat.le_add_right _ _) hlt)

end

/-- C91, `evolve` throws for constraints, several objectives, a stochastic problem and an empty population, and nothing
has happened. -/
theorem C91_throws (v : Env K σ) (P : AProb K) (A : Pso K) (fuel : Nat) (V : List (List (Fl K))) (s : St K σ)
    (h : P.info.nc ≠ 0 ∨ P.info.nf ≠ 1 ∨ P.info.stochastic = true ∨ s.pop.id.length = 0) :
    psoEvolve v P A fuel V s = (.throws .invalidArgument, s) := by
  unfold psoEvolve
  by_cases h1 : P.info.nc ≠ 0
  · rw [if_pos h1]; rfl
  rw [if_neg h1]
  by_cases h2 : P.info.nf ≠ 1
  · rw [if_pos h2]; rfl
  rw [if_neg h2]
  by_cases h3 : P.info.stochastic = true
  · rw [if_pos h3]; rfl
  rw [if_neg h3]
  have h4 : s.pop.id.length = 0 := by tauto
  show Run.bind Run.get _ s = _
  simp only [Run.bind, Run.get]
  rw [if_pos h4]; rfl

/-! ### Examples and counterexamples -/

/-- the default parameters, with `gens`, variant, topology and its parameter -/
def psoDemo (gens variant topology param : Nat) : Pso ℚ :=
  ⟨gens, .fin (7298 / 10000), .fin (205 / 100), .fin (205 / 100), .fin (1 / 2), variant, topology, param, false⟩

theorem psoDemo_ok {gens variant topology param : Nat} (h : 1 ≤ variant ∧ variant ≤ 6 ∧ 1 ≤ topology ∧ topology ≤ 4 ∧ 1 ≤ param) :
    psoCtor gens (.fin (7298 / 10000)) (.fin (205 / 100)) (.fin (205 / 100)) (.fin (1 / 2)) variant topology param false =
      .ok (psoDemo gens variant topology param) :=
  (C91_ctor gens (7298 / 10000 : ℚ) (205 / 100) (205 / 100) (1 / 2) variant topology param false).1
    ⟨by norm_num, by norm_num, by norm_num, by norm_num, by norm_num, by norm_num, by norm_num, by norm_num, h⟩

theorem psoDemoOps : PsoOps algDemoEnv := psoOps_exact rfl (fun k hk => by
  show ((k : ℤ) : ℚ) ≠ 0
  exact_mod_cast hk.ne')

theorem deDemo_fin : ∀ x ∈ deDemoSt.pop.x, AllFin x := fun x hx => allFin_of_box algDemo_finiteBox (deDemo_box x hx)

example : wp (psoEvolve algDemoEnv algDemo (psoDemo 2 5 2 4) 3 []) (fun V' s' => PsoDone algDemoEnv algDemo (psoDemo 2 5 2 4) [] deDemoSt V' s')
    (RunFailed algDemo deDemoSt) deDemoSt :=
  C91_evolve_partial algDemoEnv _ demoGen_lawful psoDemoOps algDemo algDemo_finiteBox rfl rfl rfl 2 _ _ _ _ 5 2 4 false _ (psoDemo_ok (by decide))
    (by decide) deDemoSt deDemo_inv (by decide) (by decide) deDemo_fin (fun _ _ _ => by decide) [] (fun h => by cases h) 3 (by decide)

/-- all topologies, and a run in which somebody improves -/
example : ∀ t ∈ [1, 2, 3, 4], ∀ w ∈ [1, 2, 3, 4, 5, 6],
    (psoEvolve algDemoEnv algDemo (psoDemo 2 w t 4) 3 [] deDemoSt).2.evs.length = 10 ∧
    (psoEvolve algDemoEnv algDemo (psoDemo 2 w t 4) 3 [] deDemoSt).2.pop.f ≠ deDemoSt.pop.f := by
  decide +kernel

example : psoEvolve algDemoEnv { algDemo with info := { algDemo.info with stochastic := true } } (psoDemo 2 5 2 4) 3 [] deDemoSt =
    (.throws .invalidArgument, deDemoSt) := C91_throws _ _ _ _ _ _ (Or.inr (Or.inr (Or.inl rfl)))

/-- one individual -/
def psoOneSt : St ℚ (List ℚ) := ⟨⟨[5], [[.fin 3]], [[.fin 9]], [.fin 3], [.fin 9], [], fun n => n, []⟩, [1], []⟩

/-- C91 is false for the default parameters and a single individual: the neighbours are no particles, reading their
fitness is undefined. It is also false for `neighb_param` 1, which the constructor takes: the list of neighbours is
empty. -/
theorem C91_undefined :
    (psoCtor 1 (.fin (7298 / 10000)) (.fin (205 / 100)) (.fin (205 / 100)) (.fin (1 / 2)) 5 2 4 false = .ok (psoDemo 1 5 2 4) ∧
      (psoEvolve algDemoEnv algDemo (psoDemo 1 5 2 4) 2 [] psoOneSt).1 = .ub) ∧
    (psoCtor 1 (.fin (7298 / 10000)) (.fin (205 / 100)) (.fin (205 / 100)) (.fin (1 / 2)) 5 2 1 false = .ok (psoDemo 1 5 2 1) ∧
      (psoEvolve algDemoEnv algDemo (psoDemo 1 5 2 1) 2 [] deDemoSt).1 = .ub) :=
  ⟨⟨psoDemo_ok (by decide), by decide +kernel⟩, psoDemo_ok (by decide), by decide +kernel⟩

/-- C91 is false in the fully informed variant for `neighb_param` 1, and for the parameter NaN, which the constructor
takes: points outside the bounds (NaN) are evaluated. -/
theorem C91_nan :
    (∃ r : User (List (Fl ℚ)), (psoEvolve algDemoEnv algDemo (psoDemo 1 6 2 1) 2 [] deDemoSt).2.evs[0]? = some ([Fl.nan], r)) ∧
    (∃ (A : Pso ℚ) (r : User (List (Fl ℚ))), psoCtor 1 .nan (.fin (205 / 100)) (.fin (205 / 100)) (.fin (1 / 2)) 5 2 4 false = .ok A ∧
      (psoEvolve algDemoEnv algDemo A 2 [] deDemoSt).2.evs[0]? = some ([Fl.nan], r)) ∧
    ¬ InBox algDemo.lb algDemo.ub 0 [Fl.nan] := by
  refine ⟨⟨.ok [.nan], by decide +kernel⟩, ⟨{ psoDemo 1 5 2 4 with omega := .nan }, .ok [.nan], by decide +kernel, by decide +kernel⟩, ?_⟩
  rintro ⟨_, h⟩
  have := (h 0 (.fin 0) (.fin 10) .nan rfl rfl rfl).2.1
  simp [Fl.le_def, Fl.cls] at this

/-- two variables -/
def psoTwo : AProb ℚ := ⟨{ P1 with nx := 2 }, [.fin 0, .fin 0], [.fin 10, .fin 10], 0, fun _ _ => .ok [.fin 1]⟩

def psoTwoSt : St ℚ (List ℚ) :=
  ⟨⟨[1, 2, 3, 4, 5], List.replicate 5 [.fin 3, .fin 3], List.replicate 5 [.fin 9], [.fin 3, .fin 3], [.fin 9], [], fun n => n, []⟩, [1], []⟩

/-- C91 is false for velocities remembered from a problem with fewer variables (`memory`), even though the population has
the right size: the velocities have too few components. -/
theorem C91_memory : ∃ V : List (List (Fl ℚ)),
    (psoEvolve algDemoEnv algDemo { psoDemo 1 5 2 4 with memory := true } 2 [] deDemoSt).1 = .ok V ∧
    (psoEvolve algDemoEnv psoTwo { psoDemo 1 5 2 4 with memory := true } 2 V psoTwoSt).1 = .ub := by
  refine ⟨[[.fin (-1178627 / 600000)], [.fin (3649 / 3000)], [.fin 0], [.fin (-10947 / 5000)], [.fin (3649 / 2000)]], by decide +kernel, by decide +kernel⟩

/-- fitness NaN for points above 1 -/
def psoNan : AProb ℚ := ⟨P1, [.fin 0], [.fin 10], 0, fun _ x => .ok (if Fl.lt (.fin 1) (x.headD .nan) = true then [.nan] else [.fin 0])⟩

/-- C92 is false with NaN: a fitness NaN replaces the best of a particle, the population returned is worse than the one
given. -/
theorem C92_nan : (psoEvolve algDemoEnv psoNan (psoDemo 1 5 1 4) 2 [] deDemoSt).1 ≠ .ub ∧
    deDemoSt.pop.f[0]? = some [.fin 9] ∧ (psoEvolve algDemoEnv psoNan (psoDemo 1 5 1 4) 2 [] deDemoSt).2.pop.f[0]? = some [.nan] := by
  refine ⟨by decide +kernel, by decide +kernel, by decide +kernel⟩

end Verif.Props
