import Verif.Proof.Nsga2
import Verif.Props.SelectReplace

/-!
# nsga2 (C70)
-/

set_option autoImplicit false

namespace Verif.Props

open Verif Run Prob Pop Alg Genetic MO Spec

variable {K σ : Type}

/-- `W` is what `select_best_N_mo` chooses from `U`: `NP` different individuals, none of them worse (rank, then crowding
distance within the front) than one that was not chosen. -/
def ChosenFrom [LinearOrder K] (op : Fl.Ops K) (srt : (Nat → Nat → Bool) → List Nat → List Nat) (U : List (List (Fl K) × List (Fl K)))
    (NP : Nat) (W : List (List (Fl K) × List (Fl K))) : Prop :=
  ∃ r : List Nat, r.length = NP ∧ r.Nodup ∧ (∀ i ∈ r, i < U.length) ∧
    (∀ a ∈ r, ∀ b, b < U.length → b ∉ r → RankCrowdGE op srt (U.map Prod.snd) a b) ∧
    W.map some = r.map (fun i => U[i]?)

/-- the individuals of a population -/
def individuals (p : Pop.State K) : List (List (Fl K) × List (Fl K)) := p.x.zip p.f

/-- `n` steps of a relation -/
inductive Steps {α : Type} (R : α → α → Prop) : Nat → α → α → Prop
  | refl (s : α) : Steps R 0 s s
  | snoc {n : Nat} {a b c : α} : Steps R n a b → R b c → Steps R (n + 1) a c

/-- One generation: as many offspring as parents are evaluated (in this order), and the new population is chosen from
parents and offspring. -/
def NsgaStep [LinearOrder K] (op : Fl.Ops K) (srt : (Nat → Nat → Bool) → List Nat → List Nat) (s s' : St K σ) : Prop :=
  ∃ kids : List (List (Fl K) × List (Fl K)), kids.length = s.pop.id.length ∧ s'.evs = s.evs ++ asCalls kids ∧
    s'.pop.id = s.pop.id ∧ ChosenFrom op srt (individuals s.pop ++ kids) s.pop.id.length (individuals s'.pop)

/-- nobody in `U` dominates number `i` -/
def NonDominated [LinearOrder K] (U : List (List (Fl K) × List (Fl K))) (i : Nat) : Prop :=
  i < U.length ∧ ∀ j, ¬ DomIdx (U.map Prod.snd) j i

section
variable [LinearOrder K]

/-- C70 (elitism). Whatever the number of non-dominated individuals: either all of them are chosen, or only they are. -/
theorem C70_elitist (op : Fl.Ops K) (srt : (Nat → Nat → Bool) → List Nat → List Nat) (U W : List (List (Fl K) × List (Fl K)))
    (M : Nat) (hM : ∀ p ∈ U, p.2.length = M) (hU : 2 ≤ U.length) (NP : Nat) (h : ChosenFrom op srt U NP W) :
    (∀ (i : Nat) (p : List (Fl K) × List (Fl K)), NonDominated U i → U[i]? = some p → p ∈ W) ∨
    (∀ p ∈ W, ∃ i, NonDominated U i ∧ U[i]? = some p) := by
  obtain ⟨r, -, -, h3, h4, h5⟩ := h
  have hlen : (U.map Prod.snd).length = U.length := by simp
  obtain ⟨t, ht, hL, -, h2, -⟩ := C02_fnds_layers (U.map Prod.snd) (by rw [hlen]; exact hU) (fun p hp q hq => by
    obtain ⟨p', hp', rfl⟩ := List.mem_map.mp hp
    obtain ⟨q', hq', rfl⟩ := List.mem_map.mp hq
    exact (hM p' hp').trans (hM q' hq').symm)
  have h0 : 0 < t.fronts.length := by
    rcases Nat.eq_zero_or_pos t.fronts.length with h | h
    · have := hL.partition.length_eq
      rw [List.length_eq_zero_iff.mp h] at this
      simp at this
      rw [← this] at hU; simp at hU
    · exact h
  have hrank : ∀ i, i < U.length → (t.rank[i]? = some 0 ↔ NonDominated U i) := by
    intro i hi
    rw [h2 i 0 (by rw [hlen]; exact hi)]
    constructor
    · rintro ⟨f, hf, hif⟩
      rw [List.getElem?_eq_getElem h0] at hf
      cases hf
      exact ⟨hi, ((hL.first h0 i).mp hif).2⟩
    · rintro ⟨_, hd⟩
      exact ⟨_, List.getElem?_eq_getElem h0, (hL.first h0 i).mpr ⟨by rw [hlen]; exact hi, hd⟩⟩
  have hW : ∀ (m : Nat) (i : Nat), r[m]? = some i → ∃ p, U[i]? = some p ∧ W[m]? = some p := by
    intro m i hi
    have hil := h3 i (List.mem_of_getElem? hi)
    have := congrArg (fun l => l[m]?) h5
    simp only [List.getElem?_map, hi, Option.map_some, List.getElem?_eq_getElem hil] at this
    cases hw : W[m]? with
    | none => rw [hw] at this; simp at this
    | some w => rw [hw] at this; simp at this; exact ⟨w, by rw [this, List.getElem?_eq_getElem hil], rfl⟩
  by_cases hall : ∀ i, NonDominated U i → i ∈ r
  · left
    intro i p hi hp
    obtain ⟨m, hm, hmi⟩ := List.getElem_of_mem (hall i hi)
    obtain ⟨p', hp', hw⟩ := hW m i (by rw [List.getElem?_eq_getElem hm, hmi])
    rw [hp] at hp'; cases hp'
    exact List.mem_of_getElem? hw
  · right
    push Not at hall
    obtain ⟨b, hb, hbr⟩ := hall
    intro p hp
    obtain ⟨m, hm, rfl⟩ := List.getElem_of_mem hp
    have hml : m < r.length := by
      have := congrArg List.length h5
      simp at this
      omega
    obtain ⟨p', hp', hw⟩ := hW m r[m] (List.getElem?_eq_getElem hml)
    rw [List.getElem?_eq_getElem hm] at hw
    cases hw
    refine ⟨r[m], ?_, hp'⟩
    have ha := h3 _ (List.getElem_mem hml)
    obtain ⟨t', ra, rb, e1, e2, e3, e4, -⟩ := h4 _ (List.getElem_mem hml) b hb.1 hbr
    rw [ht] at e1
    cases e1
    rw [(hrank b hb.1).mpr hb] at e3
    cases e3
    have : ra = 0 := by omega
    subst this
    exact (hrank _ ha).mp e2

/-- C70 (survivors). If at most `NP` individuals of parents and offspring are non-dominated, all of them are in the new
population. -/
theorem C70_survivors (op : Fl.Ops K) (srt : (Nat → Nat → Bool) → List Nat → List Nat) (U W : List (List (Fl K) × List (Fl K)))
    (M : Nat) (hM : ∀ p ∈ U, p.2.length = M) (hU : 2 ≤ U.length) (NP : Nat) (h : ChosenFrom op srt U NP W)
    (hfew : ∀ S : List Nat, S.Nodup → (∀ i ∈ S, NonDominated U i) → S.length ≤ NP)
    (i : Nat) (p : List (Fl K) × List (Fl K)) (hi : NonDominated U i) (hp : U[i]? = some p) : p ∈ W := by
  obtain ⟨r, h1, h2, h3, h4, h5⟩ := h
  rcases C70_elitist op srt U W M hM hU NP ⟨r, h1, h2, h3, h4, h5⟩ with h | h
  · exact h i p hi hp
  · have hlen : (U.map Prod.snd).length = U.length := by simp
    obtain ⟨t, ht, hL, -, hr, -⟩ := C02_fnds_layers (U.map Prod.snd) (by rw [hlen]; exact hU) (fun p hp q hq => by
      obtain ⟨p', hp', rfl⟩ := List.mem_map.mp hp
      obtain ⟨q', hq', rfl⟩ := List.mem_map.mp hq
      exact (hM p' hp').trans (hM q' hq').symm)
    by_cases hir : i ∈ r
    · obtain ⟨m, hm, hmi⟩ := List.getElem_of_mem hir
      have := congrArg (fun l => l[m]?) h5
      simp only [List.getElem?_map, List.getElem?_eq_getElem hm, hmi, Option.map_some, hp] at this
      cases hw : W[m]? with
      | none => rw [hw] at this; simp at this
      | some w => rw [hw] at this; simp at this; exact this ▸ List.mem_of_getElem? hw
    · exfalso
      have h0 : 0 < t.fronts.length := by
        rcases Nat.eq_zero_or_pos t.fronts.length with h | h
        · have := hL.partition.length_eq
          rw [List.length_eq_zero_iff.mp h] at this
          simp at this
          rw [← this] at hU; simp at hU
        · exact h
      have hnd : ∀ a ∈ r, NonDominated U a := by
        intro a ha
        obtain ⟨t', ra, rb, e1, e2, e3, e4, -⟩ := h4 a ha i hi.1 hir
        rw [ht] at e1
        cases e1
        have hi0 : t.rank[i]? = some 0 := (hr i 0 (by rw [hlen]; exact hi.1)).mpr
          ⟨_, List.getElem?_eq_getElem h0, (hL.first h0 i).mpr ⟨by rw [hlen]; exact hi.1, hi.2⟩⟩
        rw [hi0] at e3
        cases e3
        have : ra = 0 := by omega
        subst this
        obtain ⟨f, hf, haf⟩ := (hr a 0 (by rw [hlen]; exact h3 a ha)).mp e2
        rw [List.getElem?_eq_getElem h0] at hf
        cases hf
        exact ⟨h3 a ha, ((hL.first h0 a).mp haf).2⟩
      have := hfew (i :: r) (List.nodup_cons.mpr ⟨hir, h2⟩) (fun j hj => by
        rcases List.mem_cons.mp hj with rfl | hj
        · exact hi
        · exact hnd j hj)
      simp [h1] at this

end

variable [Field K] [LinearOrder K] [IsStrictOrderedRing K]

/-- The new population is written over the old one. -/
theorem wp_nsgaInsert {B : List (Fl K) → Prop} {v : MoEnv K σ} {P : AProb K} (hnx : 0 < P.info.nx) (hnobj : 0 < P.info.nobj)
    {s0 s : St K σ} {new : List (ECall K)} (ht : TrackedBy B P s0 new s) {U : List (List (Fl K) × List (Fl K))}
    (hU : ∀ p ∈ U, p.1.length = P.info.nx ∧ p.2.length = P.info.nf) {r : List Nat} (hr : ∀ i ∈ r, i < U.length)
    (hl : r.length = s.pop.id.length) {Q : Unit → St K σ → Prop} {E : Exn → St K σ → Prop}
    (hq : ∀ s', TrackedBy B P s0 new s' → s'.e = s.e → (individuals s'.pop).map some = r.map (fun i => U[i]?) → Q () s')
    (he : ∀ e s', FailedBy B P s0 e s' → E e s') :
    wp ((List.range s.pop.id.length).foldlM (nsgaInsert v P U r) ()) Q E s := by
  have hid : ∀ s', TrackedBy B P s0 new s' → s'.pop.id = s.pop.id := fun s' h => h.id.trans ht.id.symm
  refine (wp_range (fun t (_ : Unit) s' => TrackedBy B P s0 new s' ∧ s'.e = s.e ∧
    ∀ (i b : Nat) (p : List (Fl K) × List (Fl K)), i < t → r[i]? = some b → U[b]? = some p →
      s'.pop.x[i]? = some p.1 ∧ s'.pop.f[i]? = some p.2) _ _ s ⟨ht, rfl, fun _ _ _ h => absurd h (by omega)⟩ ?_).mono ?_
      (fun (e : Exn) s' (h : E e s') => h)
  · rintro t _ s' hlt ⟨ht', he', hpop⟩
    have htr : t < r.length := by omega
    have hb := hr _ (List.getElem_mem htr)
    unfold nsgaInsert
    rw [wp_bind, wp_lift_get htr, wp_bind, wp_lift_get hb]
    have hd := hU _ (List.getElem_mem hb)
    refine wp_setXF_tracked (v := v.toEnv) hnx hnobj ht' (by rw [hid s' ht']; exact hlt) hd.1 hd.2 ?_ he
    intro s2 ht2 he2 hx2 hf2 _
    refine ⟨ht2, he2.trans he', ?_⟩
    intro i b p hi hrb hup
    have hxl : t < s'.pop.x.length := by rw [ht'.inv.wf.xs, hid s' ht']; exact hlt
    have hfl : t < s'.pop.f.length := by rw [ht'.inv.wf.fs, hid s' ht']; exact hlt
    by_cases hit : i = t
    · subst hit
      rw [List.getElem?_eq_getElem htr] at hrb
      cases hrb
      rw [List.getElem?_eq_getElem hb] at hup
      cases hup
      rw [hx2, hf2]
      exact ⟨List.getElem?_set_self hxl, List.getElem?_set_self hfl⟩
    · rw [hx2, hf2, List.getElem?_set_ne (Ne.symm hit), List.getElem?_set_ne (Ne.symm hit)]
      exact hpop i b p (by omega) hrb hup
  · rintro _ s' ⟨ht', he', hpop⟩
    refine hq s' ht' he' ?_
    apply List.ext_getElem?
    intro i
    rw [List.getElem?_map, List.getElem?_map, individuals]
    by_cases hi : i < r.length
    · have hb := hr _ (List.getElem_mem hi)
      obtain ⟨h1, h2⟩ := hpop i r[i] U[r[i]] (by omega) (List.getElem?_eq_getElem hi) (List.getElem?_eq_getElem hb)
      rw [List.getElem?_eq_getElem hi, Option.map_some, List.getElem?_eq_getElem hb]
      rw [List.getElem?_zip_eq_some.mpr ⟨h1, h2⟩]
      rfl
    · have hx : s'.pop.x.length ≤ i := by rw [ht'.inv.wf.xs, hid s' ht']; omega
      rw [List.getElem?_eq_none (by rw [List.length_zip]; omega), List.getElem?_eq_none (by omega)]
      rfl

/-- What `nsga2::evolve` leaves behind after `gens` generations. -/
structure NsgaDone (Num : Prop) (v : MoEnv K σ) (P : AProb K) (gens : Nat) (s s' : St K σ) : Prop where
  inv : Inv P.info s'.pop
  id : s'.pop.id = s.pop.id
  steps : Steps (NsgaStep v.op v.srt) gens s s'
  user : ∃ new, s'.evs = s.evs ++ new ∧ (∀ p ∈ new, ∃ h, p.2 = P.fit h p.1) ∧
    ∀ p ∈ new, p.1.length = P.info.nx ∧ (Num → InBox P.lb P.ub P.nix p.1)

variable [FloorRing K]

theorem wp_nsgaGen {v : MoEnv K σ} {rep : K → Prop} (hg : v.g.Lawful rep) (hd : v.d.Lawful) (hsrt : ValidSort v.srt) {P : AProb K}
    (hP : SaneBounds P.lb P.ub P.nix) (hr : Reps rep P.lb P.ub) (hdim : P.info.nx = P.lb.length) (hnf : 2 ≤ P.info.nf)
    (hnc : P.info.nc = 0) {A : Nsga2 K} (hbfe : ∀ b, A.bfe = some b → BatchOk P b) {Num : Prop}
    (hN : Num → BredNum v.pw v.op P.lb P.ub A.etaC A.etaM) {s0 s : St K σ} {new : List (ECall K)}
    (ht : TrackedBy (Bred Num P) P s0 new s) {NP : Nat} (hNP : s.pop.id.length = NP) (h2 : 2 ≤ NP) (h4 : NP % 4 = 0) (hx : ∀ x ∈ s.pop.x, Bred Num P x)
    {sh : List Nat × List Nat} (hl1 : sh.1.length = NP) (hl2 : sh.2.length = NP) (hs1 : ∀ a ∈ sh.1, a < NP)
    (hs2 : ∀ a ∈ sh.2, a < NP) (k : Nat) {Q : (List Nat × List Nat) × Bool → St K σ → Prop} {E : Exn → St K σ → Prop}
    (hq : ∀ sh' s' new', sh'.1.length = NP → sh'.2.length = NP → (∀ a ∈ sh'.1, a < NP) → (∀ a ∈ sh'.2, a < NP) →
      TrackedBy (Bred Num P) P s0 new' s' → (∀ x ∈ s'.pop.x, Bred Num P x) → NsgaStep v.op v.srt s s' → Q (sh', false) s')
    (he : ∀ e s', MoFailed (Bred Num P) P v.op A.bfe s0 e s' → E e s') :
    wp (nsgaGen v P A NP k sh) Q E s := by
  subst hNP
  have hnobj : 2 ≤ P.info.nobj := by unfold Info.nf at hnf; unfold Info.nc at hnc; omega
  have hnx : 0 < P.info.nx := by
    rw [hdim]; exact List.length_pos_iff.mpr hP.nonempty
  have hrng : ∀ (s : St K σ) (n : List (ECall K)) (p : σ), TrackedBy (Bred Num P) P s0 n s →
      TrackedBy (Bred Num P) P s0 n { s with e := p } := fun s n p h => ⟨h.inv, h.id, h.tol, h.evs, h.box, h.user, h.faults⟩
  unfold nsgaGen
  rw [wp_bind, wp_get', wp_bind, wp_onRng]
  refine wp_shuffle hd ?_
  intro sh1 e1 k1 m1
  rw [wp_bind, wp_onRng]
  refine wp_shuffle hd ?_
  intro sh2 e2 k2 m2
  obtain ⟨rc, hrc, c1, c2, -⟩ := nsgaCrowd_spec v hsrt (NP := s.pop.id.length) ht.inv.wf.dimF hnf ht.inv.wf.fs h2
  rw [wp_bind]
  dsimp only
  rw [hrc, wp_lift_ok, wp_bind]
  refine wp_nsgaKids hg hP hr hdim (by omega) hnc hbfe hN hx ht.inv.wf.xs h4 c1 c2 (k1.trans hl1) (k2.trans hl2)
    (fun a ha => hs1 a (m1 a ha)) (fun a ha => hs2 a (m2 a ha)) (hrng _ _ e2 (hrng _ _ e1 ht)) ?_ he
  intro kids s1 n1 n2 n3 n4
  have hzl : (s.pop.x.zip s.pop.f).length = s.pop.id.length := by rw [List.length_zip, ht.inv.wf.xs, ht.inv.wf.fs, min_self]
  have hU : ∀ p ∈ s.pop.x.zip s.pop.f ++ kids, (p.1.length = P.info.nx ∧ p.2.length = P.info.nf) ∧ Bred Num P p.1 := by
    intro p hp
    rcases List.mem_append.mp hp with hp | hp
    · obtain ⟨p1, p2⟩ := List.of_mem_zip hp
      exact ⟨⟨ht.inv.wf.dimX _ p1, ht.inv.wf.dimF _ p2⟩, hx _ p1⟩
    · exact ⟨⟨by rw [hdim]; exact (n2 p hp).1.1, (n2 p hp).2⟩, (n2 p hp).1⟩
  obtain ⟨r, hsel, r1, r2, r3, r4⟩ := C05_select_best v.op v.srt hsrt ((s.pop.x.zip s.pop.f ++ kids).map Prod.snd) P.info.nf
    (fun q hq => by obtain ⟨p, hp, rfl⟩ := List.mem_map.mp hq; exact (hU p hp).1.2) hnf s.pop.id.length
  rw [List.length_map, List.length_append, hzl, n1] at r1
  rw [List.length_map] at r3
  rw [wp_bind]
  show wp (Run.lift (selectBestNMo v.op v.srt ((s.pop.x.zip s.pop.f ++ kids).map Prod.snd) s.pop.id.length)) _ E s1
  rw [hsel, wp_lift_ok, wp_bind]
  have hpop : s1.pop = s.pop := n3
  have e : s.pop.id.length = s1.pop.id.length := by rw [hpop]
  show wp ((List.range s.pop.id.length).foldlM (nsgaInsert v P (s.pop.x.zip s.pop.f ++ kids) r) ()) _ E s1
  rw [e]
  refine wp_nsgaInsert hnx (by omega) n4 (fun p hp => (hU p hp).1) r3 (by rw [r1, ← e]; omega) ?_ (fun e s h => he e s (moFailed_of h))
  intro s2 t2 _ hind
  refine hq (sh1, sh2) s2 _ (k1.trans hl1) (k2.trans hl2) (fun a ha => hs1 a (m1 a ha)) (fun a ha => hs2 a (m2 a ha)) t2 ?_ ?_
  · intro x hx'
    obtain ⟨i, hi, hxi⟩ := List.getElem_of_mem hx'
    have hif : i < s2.pop.f.length := by rw [t2.inv.wf.fs, ← t2.inv.wf.xs]; exact hi
    have hmem : (x, s2.pop.f[i]) ∈ individuals s2.pop :=
      List.mem_of_getElem? (List.getElem?_zip_eq_some.mpr ⟨by rw [List.getElem?_eq_getElem hi, hxi], List.getElem?_eq_getElem hif⟩)
    have := List.mem_map_of_mem (f := some) hmem
    rw [hind] at this
    obtain ⟨j, -, hj⟩ := List.mem_map.mp this
    exact (hU _ (List.mem_of_getElem? hj)).2
  · refine ⟨kids, n1, ?_, ?_, r, by rw [r1]; omega, r2, r3, ?_, hind⟩
    · rw [t2.evs, ht.evs, List.append_assoc]
    · rw [t2.id, ht.id]
    · intro a ha b hb hbr
      exact r4 a ha b (by rw [List.length_map]; exact hb) hbr

/-- The numbers are harmless and the population is inside the bounds. -/
def NsgaNum (v : MoEnv K σ) (P : AProb K) (A : Nsga2 K) (s : St K σ) : Prop :=
  BredNum v.pw v.op P.lb P.ub A.etaC A.etaM ∧ ∀ x ∈ s.pop.x, InBox P.lb P.ub P.nix x

/-- C70. For a valid problem and population (what the checks let through), any engine, any distributions, any sort meeting
its contract, any arithmetic, any user fitness function, with or without batch evaluator (which may throw, or return
values of the fitness function): the run makes `gens` generations, each of which evaluates as many offspring as there are
individuals and then keeps those chosen by `select_best_N_mo` from parents and offspring. If moreover the numbers are
harmless and the input population is inside the bounds (`NsgaNum`), only points inside the bounds are evaluated. Nothing
is undefined and the only exceptions come from the user's code, a batch evaluator, lack of memory or integer bounds that
do not fit. -/
theorem C70_evolve (v : MoEnv K σ) (rep : K → Prop) (hg : v.g.Lawful rep) (hd : v.d.Lawful) (hsrt : ValidSort v.srt) (P : AProb K)
    (hP : SaneBounds P.lb P.ub P.nix) (hr : Reps rep P.lb P.ub) (hdim : P.info.nx = P.lb.length) (heq : someBoundEqual P.lb P.ub = false)
    (hst : P.info.stochastic = false) (hnc : P.info.nc = 0) (hnf : 2 ≤ P.info.nf) (A : Nsga2 K) (hgens : A.gens + 1 < 2 ^ 32)
    (hbfe : ∀ b, A.bfe = some b → BatchOk P b) (s : St K σ) (hs : Inv P.info s.pop) (hN5 : 5 ≤ s.pop.id.length)
    (hN4 : s.pop.id.length % 4 = 0) (fuel : Nat) (hfuel : A.gens < fuel) :
    wp (nsga2Evolve v P A fuel) (fun _ s' => NsgaDone (NsgaNum v P A s) v P A.gens s s')
      (MoFailed (fun x => x.length = P.info.nx ∧ (NsgaNum v P A s → InBox P.lb P.ub P.nix x)) P v.op A.bfe s) s := by
  generalize hNum : NsgaNum v P A s = Num
  rw [hdim]
  unfold nsga2Evolve
  rw [wp_bind, wp_get', if_neg (by simp [heq]), if_neg (by simp [hst]), if_neg (by simp [hnc]), if_neg (by omega), if_neg (by omega), wp_bind]
  have hB : ∀ x ∈ s.pop.x, Bred Num P x := fun x hx => ⟨by rw [← hdim]; exact hs.wf.dimX x hx, fun n => (hNum ▸ n : NsgaNum v P A s).2 x hx⟩
  have key := wpn_genLoop (N := False) (body := nsgaGen v P A s.pop.id.length) hgens (E := MoFailed (Bred Num P) P v.op A.bfe s)
    (fun k (sh : List Nat × List Nat) s' => ∃ new, TrackedBy (Bred Num P) P s new s' ∧ Steps (NsgaStep v.op v.srt) k s s' ∧
      (∀ x ∈ s'.pop.x, Bred Num P x) ∧ sh.1.length = s.pop.id.length ∧ sh.2.length = s.pop.id.length ∧
      (∀ a ∈ sh.1, a < s.pop.id.length) ∧ (∀ a ∈ sh.2, a < s.pop.id.length)) ?_ fuel 0
      (List.range s.pop.id.length, List.range s.pop.id.length) s (by omega) (by omega)
      ⟨[], ⟨hs, rfl, rfl, by simp, by simp, by simp, fun h => h⟩, .refl s, hB, by simp, by simp, by simp, by simp⟩
  · refine (wp_of_wpn key).mono ?_ (fun _ _ h => h)
    rintro _ s' ⟨new, t, st, -⟩
    exact ⟨t.inv, t.id, st, new, t.evs, t.user, fun p hp => ⟨by rw [hdim]; exact (t.box p hp).1, (t.box p hp).2⟩⟩
  · rintro k sh s' hk ⟨new, t, st, hb, l1, l2, m1, m2⟩
    refine wpn_of_wp (wp_nsgaGen hg hd hsrt hP hr hdim hnf hnc hbfe (fun n => (hNum ▸ n : NsgaNum v P A s).1) t (by rw [t.id]) (by omega) hN4 hb l1 l2 m1 m2 _ ?_ (fun _ _ h => h))
    intro sh' s2 new' l1' l2' m1' m2' t' hb' hstep
    exact ⟨rfl, new', t', .snoc st hstep, hb', l1', l2', m1', m2'⟩

omit [IsStrictOrderedRing K] in
/-- C70 (checks). Otherwise `evolve` throws `std::invalid_argument` and nothing has happened. -/
theorem C70_throws (v : MoEnv K σ) (P : AProb K) (A : Nsga2 K) (fuel : Nat) (s : St K σ)
    (h : (∃ (i : Nat) (a : K), P.lb[i]? = some (.fin a) ∧ P.ub[i]? = some (.fin a)) ∨ P.info.stochastic = true ∨ P.info.nc ≠ 0 ∨ P.info.nf < 2 ∨
      s.pop.id.length < 5 ∨ s.pop.id.length % 4 ≠ 0) :
    nsga2Evolve v P A fuel s = (.throws .invalidArgument, s) := by
  unfold nsga2Evolve
  show Run.bind Run.get _ s = _
  simp only [Run.bind, Run.get]
  split
  · rfl
  rename_i h1
  split
  · rfl
  split
  · rfl
  split
  · rfl
  split
  · rfl
  · exfalso
    rcases h with ⟨i, a, hl, hu⟩ | h | h | h | h | h
    · apply h1
      unfold someBoundEqual
      rw [List.any_eq_true]
      exact ⟨(.fin a, .fin a), List.mem_of_getElem? (List.getElem?_zip_eq_some.mpr ⟨hl, hu⟩), by simp [Fl.eq]⟩
    all_goals simp_all

omit [IsStrictOrderedRing K] [FloorRing K] in
/-- C70 (constructor). The parameters are accepted exactly when none is out of range; NaN passes for all of them. -/
theorem C70_ctor (gens : Nat) (cr etaC m etaM : Fl K) :
    (nsga2Ctor gens cr etaC m etaM = .ok ⟨gens, cr, etaC, m, etaM, none⟩ ↔
      (cr = .nan ∨ .fin 0 ≤ cr ∧ cr < .fin 1) ∧ NanOr 0 1 m ∧ NanOr 1 100 etaC ∧ NanOr 1 100 etaM) ∧
    (nsga2Ctor gens cr etaC m etaM = .ok ⟨gens, cr, etaC, m, etaM, none⟩ ∨
      nsga2Ctor gens cr etaC m etaM = .throws .invalidArgument) := by
  have key : (cr = .nan ∨ .fin 0 ≤ cr ∧ cr < .fin 1) ↔ (Fl.ge cr (.fin 1) || Fl.lt cr (.fin 0)) = false := by
    cases cr <;> simp [Fl.lt, Fl.ge, Fl.le, Fl.eq, Fl.lt_def, Fl.le_def, Fl.cls, and_comm]
    exact fun _ => lt_iff_le_and_ne.trans (by rw [and_comm, ne_comm])
  rw [key, nanOr_iff, nanOr_iff, nanOr_iff]
  unfold nsga2Ctor
  constructor
  · cases (Fl.ge cr (.fin 1) || Fl.lt cr (.fin 0)) <;> cases (Fl.lt m (.fin 0) || Fl.gt m (.fin 1)) <;>
      cases (Fl.lt etaC (.fin 1) || Fl.gt etaC (.fin 100)) <;> cases (Fl.lt etaM (.fin 1) || Fl.gt etaM (.fin 100)) <;> simp
  · split
    · exact Or.inr rfl
    split
    · exact Or.inr rfl
    split
    · exact Or.inr rfl
    split
    · exact Or.inr rfl
    · exact Or.inl rfl

omit [FloorRing K] in
/-- C70 (tournament). The winner is one of the two; the loser has no better rank and, with equal ranks, no larger crowding
distance. -/
theorem C70_tournament (g : Gen K σ) (rep : K → Prop) (hg : g.Lawful rep) (i j : Nat) (rank : List Nat) (cd : List (Fl K))
    (h1 : i < rank.length) (h2 : j < rank.length) (h3 : i < cd.length) (h4 : j < cd.length) (s : σ) :
    wp (moTournament g i j rank cd) (fun k _ => (k = i ∨ k = j) ∧ ∀ o, o = i ∨ o = j → ∀ (rk ro : Nat) (ck co : Fl K),
      rank[k]? = some rk → rank[o]? = some ro → cd[k]? = some ck → cd[o]? = some co →
      rk ≤ ro ∧ (rk = ro → Fl.lt ck co = false)) (fun _ _ => False) s := by
  have hirr : ∀ a : Fl K, Fl.lt a a = false := fun a => by cases a <;> simp [Fl.lt]
  have hasym : ∀ a b : Fl K, Fl.lt a b = true → Fl.lt b a = false := fun a b h => by
    cases a <;> cases b <;> simp_all [Fl.lt, le_of_lt]
  have win : ∀ {k o : Nat} (k1 : k < rank.length) (o1 : o < rank.length) (k2 : k < cd.length) (o2 : o < cd.length),
      (k = i ∧ o = j ∨ k = j ∧ o = i) → rank[k] ≤ rank[o] → (rank[k] = rank[o] → Fl.lt cd[k] cd[o] = false) →
      (k = i ∨ k = j) ∧ ∀ o, o = i ∨ o = j → ∀ (rk ro : Nat) (ck co : Fl K),
      rank[k]? = some rk → rank[o]? = some ro → cd[k]? = some ck → cd[o]? = some co → rk ≤ ro ∧ (rk = ro → Fl.lt ck co = false) := by
    intro k o k1 o1 k2 o2 hko hr hc
    refine ⟨by omega, fun o' ho' rk ro ck co e1 e2 e3 e4 => ?_⟩
    rw [List.getElem?_eq_getElem k1] at e1
    rw [List.getElem?_eq_getElem k2] at e3
    cases e1; cases e3
    by_cases h : o' = k
    · subst h
      rw [List.getElem?_eq_getElem k1] at e2
      rw [List.getElem?_eq_getElem k2] at e4
      cases e2; cases e4
      exact ⟨le_rfl, fun _ => hirr _⟩
    · have : o' = o := by omega
      subst this
      rw [List.getElem?_eq_getElem o1] at e2
      rw [List.getElem?_eq_getElem o2] at e4
      cases e2; cases e4
      exact ⟨hr, hc⟩
  unfold moTournament
  rw [wp_bind, wp_lift_get h1, wp_bind, wp_lift_get h2, wp_ite]
  refine ⟨fun h => win h1 h2 h3 h4 (by omega) (by omega) (fun e => by omega), fun n1 => ?_⟩
  rw [wp_ite]
  refine ⟨fun h => win h2 h1 h4 h3 (by omega) (by omega) (fun e => by omega), fun n2 => ?_⟩
  rw [wp_bind, wp_lift_get h3, wp_bind, wp_lift_get h4, wp_ite]
  refine ⟨fun h => win h1 h2 h3 h4 (by omega) (by omega) (fun _ => hasym _ _ h), fun n3 => ?_⟩
  rw [wp_ite]
  refine ⟨fun h => win h2 h1 h4 h3 (by omega) (by omega) (fun _ => hasym _ _ h), fun n4 => ?_⟩
  rw [wp_bind]
  refine Gen.wp_draw01 hg ?_
  intro r s' _ _
  rw [wp_ite]
  exact ⟨fun _ => win h1 h2 h3 h4 (by omega) (by omega) (fun _ => by simpa using n4),
    fun _ => win h2 h1 h4 h3 (by omega) (by omega) (fun _ => by simpa [Fl.gt] using n3)⟩

omit [IsStrictOrderedRing K] [FloorRing K] in
/-- C70 (ranks). The tournaments see the ranks of the non-dominated sorting of the population and, front by front, the
crowding distances (infinite in fronts of one or two points). -/
theorem C70_crowd (v : MoEnv K σ) (hsrt : ValidSort v.srt) (fs : List (List (Fl K))) (M : Nat) (hM : ∀ p ∈ fs, p.length = M)
    (h2 : 2 ≤ M) (hN : 2 ≤ fs.length) :
    (nsgaCrowd v fs fs.length).Sat (fun r => r.1.length = fs.length ∧ r.2.length = fs.length ∧ ∃ t, fnds fs = .ok t ∧ r.1 = t.rank ∧
      ∀ f ∈ t.fronts, ∀ (k a : Nat), f[k]? = some a → ∃ w, r.2[a]? = some w ∧ FrontCd v.op v.srt fs f k w) :=
  nsgaCrowd_spec v hsrt hM h2 rfl hN

/-! ### The arithmetic, and non-triviality -/

omit [FloorRing K] in
/-- Exact arithmetic with any `pow` with the laws of `PowLaws` and distribution indices the constructor accepts. -/
theorem bredNum_exact (pw : Fl K → Fl K → Fl K) (hpw : PowLaws pw) (lb ub : List (Fl K)) (hl : ∀ l ∈ lb, l.isFinite = true)
    (hu : ∀ u ∈ ub, u.isFinite = true) (etaC etaM : K) (h1 : 1 ≤ etaC) (h2 : 1 ≤ etaM) :
    BredNum pw (Fl.exact K) lb ub (.fin etaC) (.fin etaM) where
  finL := hl
  finU := hu
  sbx l u a b r ha1 ha2 hb1 hb2 hr0 hr1 hgt := by
    have hab : a ≠ b := by
      rintro rfl
      simp [Fl.gt, Fl.exact, Fl.sub, Fl.neg, Fl.add, Fl.abs, Fl.lt, Genetic.tiny] at hgt
      exact absurd hgt (not_lt.mpr (by positivity))
    by_cases hlt : a < b
    · rw [show (Fl.lt (Fl.fin a) (.fin b)) = true by simp [Fl.lt, hlt], if_pos rfl]
      exact sbxValues_spec hpw ha1 hlt hb2 (by linarith) hr0 hr1
    · rw [show (Fl.lt (Fl.fin a) (.fin b)) = false by simp [Fl.lt, hlt], if_neg (by simp)]
      exact sbxValues_spec hpw hb1 (lt_of_le_of_ne (not_lt.mp hlt) (Ne.symm hab)) ha2 (by linarith) hr0 hr1
  poly l u y r hlu hy1 hy2 hr0 hr1 := polyValue_spec hpw hlu hy1 hy2 (by linarith) hr0 hr1

/-- Two variables (the second one integer), two objectives. -/
def moDemo : AProb ℚ :=
  ⟨⟨2, 2, 0, 0, false⟩, [.fin 0, .fin 0], [.fin 4, .fin 3], 1, fun _ x => match x with
    | [a, b] => .ok [Fl.add a b, Fl.mul (Fl.add a (.fin (-4))) (Fl.add a (.fin (-4)))]
    | _ => .ok []⟩

def moDemoEnv : MoEnv ℚ (List ℚ) := { algDemoEnv with d := sgaDist, pw := demoPow }

def moDemoSt : St ℚ (List ℚ) :=
  ⟨⟨[1, 2, 3, 4, 5, 6, 7, 8], [[.fin 0, .fin 1], [.fin 1, .fin 2], [.fin 2, .fin 0], [.fin 3, .fin 3], [.fin 4, .fin 1], [.fin 1, .fin 1], [.fin 2, .fin 3], [.fin 3, .fin 0]],
    [[.fin 1, .fin 16], [.fin 3, .fin 9], [.fin 2, .fin 4], [.fin 6, .fin 1], [.fin 5, .fin 0], [.fin 2, .fin 9], [.fin 5, .fin 4], [.fin 3, .fin 1]], [], [], [], fun n => n, []⟩,
    [1 / 2, 1 / 4, 3 / 4, 1 / 3, 1 / 5, 1 / 2, 1, 1 / 4, 1 / 8, 1 / 2], []⟩

def moDemoAlg : Nsga2 ℚ := ⟨1, .fin (9 / 10), .fin 10, .fin (1 / 2), .fin 10, none⟩

theorem moDemo_inv : Inv moDemo.info moDemoSt.pop where
  wf := ⟨rfl, rfl, by decide +kernel, by decide +kernel⟩
  ch := Or.inl ⟨rfl, rfl⟩
  tol := rfl

theorem moDemo_sane : SaneBounds moDemo.lb moDemo.ub moDemo.nix where
  nonempty := by simp [moDemo]
  len := rfl
  ordered i l u hl hu := by
    match i with
    | 0 => cases hl; cases hu; exact ⟨by simp, by simp, by simp⟩
    | 1 => cases hl; cases hu; exact ⟨by simp, by simp, by simp⟩
    | i + 2 => cases hl
  nixLe := by simp [moDemo]
  intL i a hi ha := by
    match i with
    | 0 => cases ha; exact ⟨0, by simp⟩
    | 1 => cases ha; exact ⟨0, by simp⟩
    | i + 2 => cases ha
  intU i a hi ha := by
    match i with
    | 0 => cases ha; exact ⟨4, by simp⟩
    | 1 => cases ha; exact ⟨3, by simp⟩
    | i + 2 => cases ha

/-- The hypotheses hold for the example. -/
example : wp (nsga2Evolve moDemoEnv moDemo moDemoAlg 3)
    (fun _ s' => NsgaDone (NsgaNum moDemoEnv moDemo moDemoAlg moDemoSt) moDemoEnv moDemo moDemoAlg.gens moDemoSt s')
    (MoFailed (fun x => x.length = moDemo.info.nx ∧ (NsgaNum moDemoEnv moDemo moDemoAlg moDemoSt → InBox moDemo.lb moDemo.ub moDemo.nix x))
      moDemo moDemoEnv.op moDemoAlg.bfe moDemoSt) moDemoSt :=
  C70_evolve moDemoEnv _ demoGen_lawful sgaDist_lawful insSort_valid moDemo moDemo_sane (fun _ _ => trivial) rfl
    (by decide +kernel) rfl rfl (by simp [moDemo, Info.nf]) moDemoAlg (by norm_num [moDemoAlg]) (by simp [moDemoAlg]) moDemoSt moDemo_inv
    (by simp [moDemoSt]) (by simp [moDemoSt]) 3 (by simp [moDemoAlg])

example : (nsga2Evolve moDemoEnv moDemo moDemoAlg 3 moDemoSt).2.pop.x =
    [[.fin 0, .fin 0], [.fin 4, .fin 0], [.fin 2, .fin 0], [.fin 0, .fin 0], [.fin 3, .fin 0], [.fin 2, .fin 0], [.fin 4, .fin 0], [.fin 3, .fin 0]] := by
  decide +kernel

/-- A batch evaluator for the example. -/
def moBatch : Batch ℚ := fun _ dvs => .ok (go dvs)
where go : List (Fl ℚ) → List (Fl ℚ)
  | a :: b :: r => Fl.add a b :: Fl.mul (Fl.add a (.fin (-4))) (Fl.add a (.fin (-4))) :: go r
  | _ => []

theorem moBatch_ok : BatchOk moDemo moBatch := by
  intro h dvs fvs hb i hi hj
  have : fvs = moBatch.go dvs := by cases hb; rfl
  subst this
  clear hb hj
  refine ⟨h, ?_⟩
  simp only [moDemo] at hi ⊢
  simp only [Info.nf]
  induction i generalizing dvs with
  | zero =>
    match dvs, hi with
    | a :: b :: r, _ => simp [chunk, moBatch.go]
    | [_], hi => simp at hi
    | [], hi => simp at hi
  | succ i ih =>
    match dvs, hi with
    | a :: b :: r, hi =>
      have := ih r (by simp at hi ⊢; omega)
      simp only [chunk, moBatch.go] at this ⊢
      rw [show (i + 1) * 2 = i * 2 + 2 by ring]
      simpa using this
    | [_], hi => simp at hi; omega
    | [], hi => simp at hi

example : (nsga2Evolve moDemoEnv moDemo { moDemoAlg with bfe := some moBatch } 3 moDemoSt).2.evs.length = 8 := by decide +kernel

/-- Numbers: real arithmetic with real powers. -/
example : BredNum powR (Fl.exact ℝ) [.fin 0, .fin 0] [.fin 4, .fin 3] (.fin 10) (.fin 50) :=
  bredNum_exact powR powR_laws _ _ (by simp [Fl.isFinite]) (by simp [Fl.isFinite]) 10 50 (by norm_num) (by norm_num)

example : nsga2Ctor 1 (Fl.nan : Fl ℚ) .nan .nan .nan = .ok ⟨1, .nan, .nan, .nan, .nan, none⟩ :=
  ((C70_ctor _ _ _ _ _).1.mpr ⟨Or.inl rfl, Or.inl rfl, Or.inl rfl, Or.inl rfl⟩)

end Verif.Props
