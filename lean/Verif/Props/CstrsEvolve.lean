import Verif.Proof.CstrsEvolve

/-!
# The run of self-adaptive constraints handling (C88, C89)
-/

set_option autoImplicit false

namespace Verif.Props

open Verif Run Prob Pop Alg

variable {K σ : Type} [Field K] [LinearOrder K] [IsStrictOrderedRing K]

omit [IsStrictOrderedRing K] in
/-- C88 (errors). Several objectives, a stochastic problem, no constraints or fewer than 4 individuals:
`std::invalid_argument`, and nothing was done. -/
theorem C88_errors (v : CaEnv K σ) (P : AProb K) (rng : Nat → Nat) (plans : List (Pop.State K → Plan K)) (s : St K σ)
    (h : P.info.nobj ≠ 1 ∨ P.info.stochastic = true ∨ P.info.nec + P.info.nic = 0 ∨ s.pop.id.length < 4) :
    caEvolve v P rng plans s = (.throws .invalidArgument, s) := by
  unfold caEvolve
  split
  · rfl
  split
  · rfl
  split
  · rfl
  split
  · rfl
  rename_i h1 h2 h3 h4
  rcases h with h | h | h | h
  · exact absurd h h1
  · exact absurd h h2
  · exact absurd h h3
  · exact absurd h h4

/-- The inner algorithm: from a sound population of `NP` individuals of the penalized problem, it returns such a population,
each individual of which was given to it or is a point it asked the fitness of; or it throws. It makes at most `m` calls. -/
def InnerPlan (P : AProb K) (NP m : Nat) (plan : Pop.State K → Plan K) : Prop :=
  ∀ p : Pop.State K, Inv (caInfo P) p → p.id.length = NP → Honest P NP (· ∈ p.x) (plan p) ∧ AsksAtMost m (plan p)

/-- `h` is not preferred to `b` if it is not preferred to something to which `g` is not preferred -/
theorem neg_trans {A : Type} {D : A → Prop} {r : A → A → Prop} (h : Spec.StrictWeakOrder D r) {a b c : A} (ha : D a) (hb : D b)
    (hc : D c) (h1 : ¬ r a b) (h2 : ¬ r b c) : ¬ r a c := by
  intro hac
  by_cases h3 : r b a
  · exact h2 (h.trans b a c hb ha hc h3 hac)
  · by_cases h4 : r c b
    · exact h1 (h.trans a c b ha hc hb hac h4)
    · exact (h.incomp a b c ha hb hc h1 h3 h2 h4).1 hac

/-- What the loop does, for any way of ranking. -/
theorem wp_caLoop {v : CaEnv K σ} {P : AProb K} (hnobj : P.info.nobj = 1) (hnx : 0 < P.info.nx) {s0 : St K σ} (h0 : Inv P.info s0.pop)
    (hne : s0.pop.id ≠ []) {better : List (Fl K) → List (Fl K) → Prop}
    (hswo : Spec.StrictWeakOrder (fun f : List (Fl K) => f.length = P.info.nf) better)
    (hrank : ∀ p : Pop.State K, Inv P.info p → p.id = s0.pop.id → p.tol = s0.pop.tol → Ranked v.toEnv P better p) {m : Nat} :
    ∀ (plans : List (Pop.State K → Plan K)) (n N : Nat) (t : CaSt K σ), CaInv P s0 n t → Inv (caInfo P) t.inn →
      t.inn.id.length = t.ref.pop.id.length → (∃ g ∈ t.ref.pop.f, ∀ h ∈ s0.pop.f, ¬ better h g) →
      (∀ plan ∈ plans, InnerPlan P s0.pop.id.length m plan) → n + plans.length * m ≤ N →
      wp (caLoop v P plans) (fun _ t' => CaInv P s0 N t' ∧ (∃ g ∈ t'.ref.pop.f, ∀ h ∈ s0.pop.f, ¬ better h g) ∧
        (plans ≠ [] → ∃ w : Nat, ∀ (i : Nat) (x : List (Fl K)), i ≠ w → t'.inn.x[i]? = some x →
          t'.ref.pop.x[i]? = some x ∧ t'.ref.pop.f[i]? = t'.map x)) (fun _ t' => CaErr s0 N t') t := by
  intro plans
  induction plans with
  | nil => intro n N t hI _ _ hb _ hN; exact ⟨hI.le (by simpa using hN), hb, fun h => absurd rfl h⟩
  | cons plan plans ih =>
    rintro n N t hI hi hl ⟨g, hg, hgb⟩ hp hN
    rw [List.length_cons, Nat.add_mul, Nat.one_mul] at hN
    have hid := hI.inv.2.1
    obtain ⟨⟨b, bf, hb, hbf, hbest⟩, w, wf, hw, hwf, _⟩ := hrank t.ref.pop hI.inv.1 hid hI.inv.2.2
    have l1 := hI.inv.1.wf.xs
    have l2 := hI.inv.1.wf.fs
    have hbl := (List.getElem?_eq_some_iff.mp hbf).1
    have hwl := (List.getElem?_eq_some_iff.mp hwf).1
    have hbx := List.getElem?_eq_getElem (show b < t.ref.pop.x.length by omega)
    show wp (caIter v P plan >>= fun _ => caLoop v P plans) _ _ t
    rw [wp_bind]
    refine (wp_iter (m := m) (N := N) hnobj hnx hI hi hl (by rw [hid]; exact hne) (by omega) hb hw (by omega) hbx hbf plan ?_).mono ?_
      (fun _ _ h => h)
    · intro p _ hpi hpl
      rw [hid] at hpl ⊢
      exact hp plan (by simp) p hpi hpl
    · rintro _ t' ⟨h1, h2, h3, h4, h5, h6⟩
      have hbetter : ∃ g ∈ t'.ref.pop.f, ∀ h ∈ s0.pop.f, ¬ better h g := by
        refine ⟨bf, List.mem_of_getElem? h5, fun h hh => ?_⟩
        exact neg_trans hswo (h0.wf.dimF h hh) (hI.inv.1.wf.dimF g hg) (hI.inv.1.wf.dimF bf (List.mem_of_getElem? hbf)) (hgb h hh)
          (hbest g hg)
      by_cases hps : plans = []
      · subst hps
        exact ⟨h1.le (by simp at hN; omega), hbetter, fun _ => ⟨w, h6⟩⟩
      · refine (ih (n + m) N t' h1 h2 h3 hbetter (fun q hq => hp q (by simp [hq])) (by omega)).mono ?_ (fun _ _ h => h)
        rintro _ t'' ⟨g1, g2, g3⟩
        exact ⟨g1, g2, fun _ => g3 hps⟩

/-- the individuals are pushed into `new_pop` -/
theorem ca_begin {v : CaEnv K σ} {P : AProb K} (hnobj : P.info.nobj = 1) (hnx : 0 < P.info.nx) {s0 : St K σ} (h0 : Inv P.info s0.pop)
    (hne : s0.pop.id ≠ []) {rng : Nat → Nat} {N : Nat} :
    ∃ t, caStart v P rng s0 = .ok t ∧ wp ((List.range t.ref.pop.id.length).foldlM (caPush v P) ()) (fun _ t' => CaInv P s0 0 t' ∧ t'.ref = s0 ∧
      Inv (caInfo P) t'.inn ∧ t'.inn.id.length = s0.pop.id.length) (fun _ t' => CaErr s0 N t') t := by
  obtain ⟨pn, hpn, hpo⟩ := caUpdate_some (op := v.op) (nec := P.info.nec) h0.tol
    (fun f hf => (h0.wf.dimF f hf).trans (nf_eq hnobj)) (fun h => hne (List.length_eq_zero_iff.mp (by rw [← h0.wf.fs, h]; rfl)))
  refine ⟨⟨s0, pn, caCache s0.pop.x s0.pop.f, Pop.empty [] rng []⟩, by unfold caStart; rw [hpn]; rfl, ?_⟩
  have hI0 : CaInv P s0 0 ⟨s0, pn, fun _ => none, Pop.empty [] rng []⟩ :=
    ⟨⟨[], tracked_refl h0, by simp⟩, hpo, by simp, fun i x f hx hf => Or.inl ⟨i, hx, hf⟩⟩
  obtain ⟨hI, hc⟩ := cacheOf hI0 pn hpo
  have hinn : Inv (caInfo P) (Pop.empty (K := K) [] rng []) :=
    ⟨⟨rfl, rfl, by simp [Pop.empty], by simp [Pop.empty]⟩, Or.inl ⟨rfl, rfl⟩, rfl⟩
  refine (wp_push hnobj hnx hI hc hinn rfl (Nat.zero_le _)).mono ?_ (fun _ _ h => h)
  rintro _ t ⟨h1, h2, h3, h4, h5⟩
  exact ⟨h1, h2, h4, h5⟩

/-- The whole run, for any way of ranking. -/
theorem ca_run {v : CaEnv K σ} {P : AProb K} (hnobj : P.info.nobj = 1) (hnx : 0 < P.info.nx) {s0 : St K σ} (h0 : Inv P.info s0.pop)
    (hne : s0.pop.id ≠ []) {better : List (Fl K) → List (Fl K) → Prop}
    (hswo : Spec.StrictWeakOrder (fun f : List (Fl K) => f.length = P.info.nf) better)
    (hrank : ∀ p : Pop.State K, Inv P.info p → p.id = s0.pop.id → p.tol = s0.pop.tol → Ranked v.toEnv P better p) {m : Nat}
    {rng : Nat → Nat} {plans : List (Pop.State K → Plan K)} (hp : ∀ plan ∈ plans, InnerPlan P s0.pop.id.length m plan) :
    ∃ t, caStart v P rng s0 = .ok t ∧
      wp (caMain v P plans) (fun _ t' => CaInv P s0 (plans.length * m) t' ∧ (∃ g ∈ t'.ref.pop.f, ∀ h ∈ s0.pop.f, ¬ better h g) ∧
        (plans ≠ [] → ∃ w : Nat, ∀ (i : Nat) (x : List (Fl K)), i ≠ w → t'.inn.x[i]? = some x →
          t'.ref.pop.x[i]? = some x ∧ t'.ref.pop.f[i]? = t'.map x)) (fun _ t' => CaErr s0 (plans.length * m) t') t := by
  obtain ⟨t0, k1, k2⟩ := ca_begin (v := v) (rng := rng) (N := plans.length * m) hnobj hnx h0 hne
  refine ⟨t0, k1, ?_⟩
  unfold caMain
  rw [wp_bind, wp_getCa, wp_bind]
  refine k2.mono ?_ (fun _ _ h => h)
  rintro _ t ⟨h1, h2, h4, h5⟩
  refine wp_caLoop hnobj hnx h0 hne hswo hrank plans 0 _ t h1 h4 (by rw [h5, h2]) ?_ hp (by omega)
  obtain ⟨⟨b, bf, hb, hbf, hbest⟩, _⟩ := hrank s0.pop h0 rfl rfl
  exact ⟨bf, by rw [h2]; exact List.mem_of_getElem? hbf, hbest⟩

/-- What `evolve` did: the same individuals (IDs), a sound population, at most `n` calls of the fitness function; every pair of
decision and fitness vectors was there before or comes from a call; and no individual of the input is preferred to the best
individual. -/
structure Adapted (better : List (Fl K) → List (Fl K) → Prop) (P : AProb K) (n : Nat) (s s' : St K σ) : Prop where
  inv : Inv P.info s'.pop
  id : s'.pop.id = s.pop.id
  tol : s'.pop.tol = s.pop.tol
  evs : ∃ new, s'.evs = s.evs ++ new ∧ new.length ≤ n ∧ ∀ c ∈ new, ∃ h, c.2 = P.fit h c.1
  pairs : ∀ (i : Nat) (x f : List (Fl K)), s'.pop.x[i]? = some x → s'.pop.f[i]? = some f →
    (∃ j : Nat, s.pop.x[j]? = some x ∧ s.pop.f[j]? = some f) ∨ (x, .ok f) ∈ s'.evs
  best : ∃ g ∈ s'.pop.f, ∀ h ∈ s.pop.f, ¬ better h g

omit [IsStrictOrderedRing K] in
theorem wp_caEvolve {v : CaEnv K σ} {P : AProb K} {rng : Nat → Nat} {plans : List (Pop.State K → Plan K)} {s : St K σ} {t : CaSt K σ}
    (h1 : P.info.nobj = 1) (h2 : P.info.stochastic = false) (h3 : 0 < P.info.nc) (h4 : 4 ≤ s.pop.id.length) (h5 : caStart v P rng s = .ok t)
    {Q : Unit → St K σ → Prop} {E : Exn → St K σ → Prop} (h : wp (caMain v P plans) (fun a t' => Q a t'.ref) (fun e t' => E e t'.ref) t) :
    wp (caEvolve v P rng plans) Q E s := by
  have e : caEvolve v P rng plans s = ((caMain v P plans t).1, (caMain v P plans t).2.ref) := by
    unfold caEvolve
    rw [if_neg (not_not.mpr h1), if_neg (by simp [h2]), if_neg (by omega), if_neg (by omega), h5]
  unfold wp at h ⊢
  rw [e]
  rcases hm : caMain v P plans t with ⟨_ | _ | _ | _, t'⟩ <;> rw [hm] at h <;> exact h

/-- the order of `compare_fc` for constraints of one kind -/
theorem fc_swo {P : AProb ℝ} (hnobj : P.info.nobj = 1) (hk : P.info.nec = 0 ∨ P.info.nic = 0) {tol : List (Fl ℝ)} (htol : tol.length = P.info.nc) :
    Spec.StrictWeakOrder (fun f : List (Fl ℝ) => f.length = P.info.nf) (FcBetter P.info.nec tol) := by
  have h := C11_one_kind_partial P.info.nec tol (by
    rcases hk with h | h
    · exact Or.inl h
    · right; rw [htol]; simp only [Info.nc]; omega)
  have args : ∀ f : List (Fl ℝ), f.length = P.info.nf → FcArgs P.info.nec tol f := by
    intro f hf
    refine ⟨?_, ?_⟩ <;> simp only [Info.nf, Info.nc] at * <;> omega
  exact ⟨fun a ha => h.irrefl a (args a ha), fun a b c ha hb hc => h.trans a b c (args a ha) (args b hb) (args c hc),
    fun a b c ha hb hc => h.incomp a b c (args a ha) (args b hb) (args c hc)⟩

/-- A problem and a population `evolve` accepts, with constraints of one kind. -/
structure Adaptable (P : AProb ℝ) (p : Pop.State ℝ) : Prop where
  nobj : P.info.nobj = 1
  det : P.info.stochastic = false
  nc : 0 < P.info.nc
  kinds : P.info.nec = 0 ∨ P.info.nic = 0
  nx : 0 < P.info.nx
  inv : Inv P.info p
  size : 4 ≤ p.id.length

/-- C88. Whatever the inner algorithm is, as long as it returns points it was given or asked the fitness of (at most `m` calls
each time): `evolve` does nothing undefined; if it returns, then the population has the same individuals, an individual to
which none of the input is preferred, fitness vectors that belong to the decision vectors, and the fitness function was
called at most `iters * m` times. NaN and infinite fitness values and rounding in the penalties are included.
`_partial`: exact arithmetic in `compare_fc` and constraints of one kind (else the sort inside `best_idx()` can be undefined,
C13); undefined behaviour if the inner algorithm returns some other point (`C88_undefined`). -/
theorem C88_evolve_partial (v : CaEnv ℝ σ) (hsrt : ValidSort v.srt) (hsq : v.sq = Fl.sqrtR) (P : AProb ℝ) (rng : Nat → Nat)
    (plans : List (Pop.State ℝ → Plan ℝ)) (m : Nat) (s : St ℝ σ) (hs : Adaptable P s.pop)
    (hp : ∀ plan ∈ plans, InnerPlan P s.pop.id.length m plan) :
    wp (caEvolve v P rng plans) (fun _ s' => Adapted (FcBetter P.info.nec s.pop.tol) P (plans.length * m) s s')
      (fun _ s' => ∃ new, s'.evs = s.evs ++ new ∧ new.length ≤ plans.length * m) s := by
  have hne : s.pop.id ≠ [] := fun h => by have := hs.size; rw [h] at this; simp at this
  obtain ⟨t, h1, h2⟩ := ca_run (v := v) (rng := rng) hs.nobj hs.nx hs.inv hne (fc_swo hs.nobj hs.kinds hs.inv.tol)
    (fun p hi hid ht => by
      have := ranked_constrained v.toEnv hsrt hsq P hs.nobj hs.nc hs.kinds p hi (by rw [hid]; exact hne)
      rwa [ht] at this) hp
  refine wp_caEvolve hs.nobj hs.det hs.nc hs.size h1 (h2.mono ?_ (fun _ _ h => h))
  rintro _ t' ⟨g1, g2, _⟩
  obtain ⟨new, g3, g4⟩ := g1.trk
  exact ⟨g3.inv, g3.id, g3.tol, ⟨new, g3.evs, g4, g3.user⟩, g1.pairs, g2⟩

/-- C89. After the last iteration the population holds, apart from at most one, the individuals the inner algorithm returned
(`inn`), with the fitness vectors of the cache.
`_partial`: the full statement (no improvement found by the inner algorithm is lost) is false: `C89_lost`. -/
theorem C89_kept_partial (v : CaEnv ℝ σ) (hsrt : ValidSort v.srt) (hsq : v.sq = Fl.sqrtR) (P : AProb ℝ) (rng : Nat → Nat)
    (plans : List (Pop.State ℝ → Plan ℝ)) (hpl : plans ≠ []) (m : Nat) (s : St ℝ σ) (hs : Adaptable P s.pop)
    (hp : ∀ plan ∈ plans, InnerPlan P s.pop.id.length m plan) :
    ∃ t, caStart v P rng s = .ok t ∧ wp (caMain v P plans) (fun _ t' => ∃ w : Nat, ∀ (i : Nat) (x : List (Fl ℝ)), i ≠ w →
        t'.inn.x[i]? = some x → t'.ref.pop.x[i]? = some x ∧ t'.ref.pop.f[i]? = t'.map x) (fun _ _ => True) t := by
  have hne : s.pop.id ≠ [] := fun h => by have := hs.size; rw [h] at this; simp at this
  obtain ⟨t, h1, h2⟩ := ca_run (v := v) (rng := rng) hs.nobj hs.nx hs.inv hne (fc_swo hs.nobj hs.kinds hs.inv.tol)
    (fun p hi hid ht => by
      have := ranked_constrained v.toEnv hsrt hsq P hs.nobj hs.nc hs.kinds p hi (by rw [hid]; exact hne)
      rwa [ht] at this) hp
  exact ⟨t, h1, h2.mono (fun _ _ h => h.2.2 hpl) (fun _ _ _ => trivial)⟩

/-- C89 (the slot). With one iteration: the best individual of the input is put where the worst one of the input was, whatever
the inner algorithm left there; all other individuals are what the inner algorithm returned. -/
theorem C89_slot (v : CaEnv ℝ σ) (hsrt : ValidSort v.srt) (hsq : v.sq = Fl.sqrtR) (P : AProb ℝ) (rng : Nat → Nat)
    (plan : Pop.State ℝ → Plan ℝ) (m : Nat) (s : St ℝ σ) (hs : Adaptable P s.pop) (hp : InnerPlan P s.pop.id.length m plan) :
    ∃ t, caStart v P rng s = .ok t ∧ wp (caMain v P [plan]) (fun _ t' => ∃ (b w : Nat) (bf wf : List (Fl ℝ)),
        s.pop.f[b]? = some bf ∧ s.pop.f[w]? = some wf ∧ (∀ g ∈ s.pop.f, ¬ FcBetter P.info.nec s.pop.tol g bf) ∧
        (∀ g ∈ s.pop.f, ¬ FcBetter P.info.nec s.pop.tol wf g) ∧ t'.ref.pop.f[w]? = some bf ∧ t'.ref.pop.x[w]? = s.pop.x[b]? ∧
        ∀ (i : Nat) (x : List (Fl ℝ)), i ≠ w → t'.inn.x[i]? = some x → t'.ref.pop.x[i]? = some x ∧ t'.ref.pop.f[i]? = t'.map x)
      (fun _ _ => True) t := by
  have hne : s.pop.id ≠ [] := fun h => by have := hs.size; rw [h] at this; simp at this
  obtain ⟨⟨b, bf, hb, hbf, hbest⟩, w, wf, hw, hwf, hworst⟩ := ranked_constrained v.toEnv hsrt hsq P hs.nobj hs.nc hs.kinds s.pop hs.inv hne
  obtain ⟨t, h1, h2⟩ := ca_begin (v := v) (rng := rng) (N := m) hs.nobj hs.nx hs.inv hne
  refine ⟨t, h1, ?_⟩
  have l1 := hs.inv.wf.xs
  have l2 := hs.inv.wf.fs
  have hbl := (List.getElem?_eq_some_iff.mp hbf).1
  have hwl := (List.getElem?_eq_some_iff.mp hwf).1
  have hbx := List.getElem?_eq_getElem (show b < s.pop.x.length by omega)
  unfold caMain
  rw [wp_bind, wp_getCa, wp_bind]
  refine h2.mono ?_ (fun _ _ _ => trivial)
  rintro _ t1 ⟨g1, g2, g3, g4⟩
  show wp (caIter v P plan >>= fun _ => pure ()) _ _ t1
  rw [wp_bind]
  refine (wp_iter (m := m) (N := m) (b := b) (w := w) hs.nobj hs.nx g1 g3 (by rw [g4, g2]) (by rw [g2]; exact hne) (by omega) (by rw [g2]; exact hb)
    (by rw [g2]; exact hw) (by rw [g2]; omega) (by rw [g2]; exact hbx) (by rw [g2]; exact hbf) plan ?_).mono ?_ (fun _ _ _ => trivial)
  · intro p _ hi hl
    rw [g2] at hl ⊢
    exact hp p hi hl
  · rintro _ t2 ⟨_, _, _, k1, k2, k3⟩
    exact ⟨b, w, bf, wf, hbf, hwf, hbest, hworst, k2, by rw [k1, hbx], k3⟩

/-! ### Runs -/

/-- one variable, the objective is the variable, one inequality that is met everywhere -/
def caProb : AProb ℚ := ⟨⟨1, 1, 0, 1, false⟩, [.fin (-9)], [.fin 9], 0, fun _ x => .ok (x ++ [.fin (-1)])⟩

def caDemoEnv : CaEnv ℚ (List ℚ) := ⟨algDemoEnv, fun a => a⟩

/-- four individuals; the last one is the worst -/
def caSt : St ℚ (List ℚ) :=
  ⟨⟨[5, 6, 7, 8], [[.fin 1], [.fin 2], [.fin 3], [.fin 4]], [[.fin 1, .fin (-1)], [.fin 2, .fin (-1)], [.fin 3, .fin (-1)], [.fin 4, .fin (-1)]],
    [.fin 1], [.fin 1, .fin (-1)], [.fin 0], fun n => n, []⟩, [], []⟩

/-- an inner algorithm that replaces individual `i` by the point `x` -/
def caSwap {L : Type} (i : Nat) (x : List (Fl L)) (p : Pop.State L) : Plan L :=
  .ask x (fun
    | .ok y => .done { p with x := p.x.set i x, f := p.f.set i y }
    | .error e => .fail e)

/-- an inner algorithm that returns a point it did not evaluate -/
def caLiar {L : Type} (x y : List (Fl L)) (p : Pop.State L) : Plan L := .done { p with x := p.x.set 0 x, f := p.f.set 0 y }

/-- C88 (undefined behaviour). If the inner algorithm returns a point whose fitness it did not ask for, the search in the cache
fails and `it_f->second` is undefined behaviour. -/
theorem C88_undefined : (caEvolve caDemoEnv caProb (fun n => n) [caLiar [.fin 7] [.fin 7]] caSt).1 = .ub := by decide +kernel

/-- C89 is false. The inner algorithm finds a point (objective 0) better than all others and puts it in the place of the worst
individual. In the end the population does not contain it: it was overwritten with a copy of the old best individual, which
now is there twice. Only the champion remembers it. -/
theorem C89_lost : (caEvolve caDemoEnv caProb (fun n => n) [caSwap 3 [.fin 0]] caSt).1 = .ok () ∧
    (caEvolve caDemoEnv caProb (fun n => n) [caSwap 3 [.fin 0]] caSt).2.pop.x = [[.fin 1], [.fin 2], [.fin 3], [.fin 1]] ∧
    (caEvolve caDemoEnv caProb (fun n => n) [caSwap 3 [.fin 0]] caSt).2.pop.chF = [.fin 0, .fin (-1)] := by
  refine ⟨by decide +kernel, by decide +kernel, by decide +kernel⟩

/-- in the place of another individual it is kept, and used in the second iteration -/
example : (caEvolve caDemoEnv caProb (fun n => n) [caSwap 1 [.fin 0], caSwap 0 [.fin 8]] caSt).2.pop.x =
    [[.fin 8], [.fin 0], [.fin 0], [.fin 1]] ∧
    (caEvolve caDemoEnv caProb (fun n => n) [caSwap 1 [.fin 0], caSwap 0 [.fin 8]] caSt).2.evs.length = 2 := by
  refine ⟨by decide +kernel, by decide +kernel⟩

/-- the population of `caSt` -/
noncomputable def caPopR : Pop.State ℝ :=
  ⟨[5, 6, 7, 8], [[.fin 1], [.fin 2], [.fin 3], [.fin 4]], [[.fin 1, .fin (-1)], [.fin 2, .nan], [.fin 3, .fin 4], [.fin 4, .fin (-1)]],
    [.fin 1], [.fin 1, .fin (-1)], [.fin 0], fun n => n, []⟩

noncomputable def caProbR : AProb ℝ := ⟨⟨1, 1, 0, 1, false⟩, [.fin (-9)], [.fin 9], 0, fun _ x => .ok (x ++ [.fin (-1)])⟩

theorem caSwap_ok {P : AProb K} {NP i : Nat} {x : List (Fl K)} (hx : x.length = P.info.nx) : InnerPlan P NP 1 (caSwap i x) := by
  intro p hi hl
  have lx := hi.wf.xs
  have lf := hi.wf.fs
  refine ⟨⟨fun y hy => ⟨⟨⟨by simpa using lx, by simpa using lf, ?_, ?_⟩, hi.ch, hi.tol⟩, hl, ?_⟩, fun _ => trivial⟩, ?_⟩
  · intro z hz
    rcases List.mem_or_eq_of_mem_set hz with hz | rfl
    · exact hi.wf.dimX z hz
    · exact hx
  · intro z hz
    rcases List.mem_or_eq_of_mem_set hz with hz | rfl
    · exact hi.wf.dimF z hz
    · exact hy
  · intro z hz
    exact (List.mem_or_eq_of_mem_set hz)
  · intro r
    cases r <;> trivial

example (e : σ) (g : Gen ℝ σ) : wp (caEvolve ⟨⟨insSort, Fl.sqrtR, Fl.exact ℝ, g⟩, expFl⟩ caProbR (fun n => n) [caSwap 1 [.fin 0], caSwap 0 [.fin 8]])
    (fun _ s' => Adapted (FcBetter 0 [.fin 0]) caProbR 2 ⟨caPopR, e, []⟩ s')
    (fun _ s' => ∃ new, s'.evs = [] ++ new ∧ new.length ≤ 2) ⟨caPopR, e, []⟩ :=
  C88_evolve_partial ⟨⟨insSort, Fl.sqrtR, Fl.exact ℝ, g⟩, expFl⟩ insSort_valid rfl caProbR (fun n => n) [caSwap 1 [.fin 0], caSwap 0 [.fin 8]] 1
    ⟨caPopR, e, []⟩ ⟨rfl, rfl, Nat.one_pos, Or.inl rfl, Nat.one_pos,
      ⟨⟨rfl, rfl, by simp [caPopR, caProbR], by simp [caPopR, caProbR, Info.nf]⟩, Or.inr ⟨rfl, rfl⟩, rfl⟩, le_refl _⟩ (by
      intro plan h
      simp only [List.mem_cons, List.not_mem_nil, or_false] at h
      rcases h with rfl | rfl <;> exact caSwap_ok rfl)

end Verif.Props
