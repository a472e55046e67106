import Verif.Proof.Ihs
import Verif.Props.Nsga2
import Verif.Props.Mbh

/-!
# ihs (C69)
-/

set_option autoImplicit false

namespace Verif.Props

open Verif Run Prob Pop Alg Genetic MO Rnd Spec

variable {K σ : Type}

/-- `W` is written over the first `NP` entries of `U`, one entry after the other: `r` are the indices chosen by
`select_best_N_mo`; entry `i` becomes what entry `r[i]` is at that time, that is the one of `U` if `r[i] ≥ i` and otherwise the
new one. -/
def InPlace [LinearOrder K] (op : Fl.Ops K) (srt : (Nat → Nat → Bool) → List Nat → List Nat) (U : List (List (Fl K) × List (Fl K)))
    (NP : Nat) (W : List (List (Fl K) × List (Fl K))) : Prop :=
  ∃ r : List Nat, r.length = NP ∧ r.Nodup ∧ (∀ i ∈ r, i < U.length) ∧
    (∀ a ∈ r, ∀ b, b < U.length → b ∉ r → RankCrowdGE op srt (U.map Prod.snd) a b) ∧ W.length = NP ∧
    (∀ i b : Nat, r[i]? = some b → (i ≤ b → W[i]? = U[b]?) ∧ (b < i → W[i]? = W[b]?)) ∧
    -- if the non-dominated ones fit, they come first and in ascending order
    ((∀ S : List Nat, S.Nodup → (∀ i ∈ S, NonDominated U i) → S.length ≤ NP) →
      ∃ f0, f0 <+: r ∧ f0.Pairwise (· < ·) ∧ ∀ i, i ∈ f0 ↔ NonDominated U i)

section
variable [LinearOrder K]

/-- C69 (members). Everybody in the new population is one of those chosen by `select_best_N_mo` from the old population and the
new individual. -/
theorem C69_members (op : Fl.Ops K) (srt : (Nat → Nat → Bool) → List Nat → List Nat) (U W : List (List (Fl K) × List (Fl K)))
    (NP : Nat) (h : InPlace op srt U NP W) :
    ∃ r : List Nat, r.length = NP ∧ r.Nodup ∧ (∀ a ∈ r, ∀ b, b < U.length → b ∉ r → RankCrowdGE op srt (U.map Prod.snd) a b) ∧
      ∀ p ∈ W, ∃ i ∈ r, U[i]? = some p := by
  obtain ⟨r, h1, h2, h3, h4, h5, h6, -⟩ := h
  refine ⟨r, h1, h2, h4, fun p hp => ?_⟩
  have key : ∀ i, i < NP → ∃ b ∈ r, W[i]? = U[b]? := by
    intro i
    induction i using Nat.strong_induction_on with
    | _ i ih =>
      intro hi
      have hi' : i < r.length := by omega
      obtain ⟨k1, k2⟩ := h6 i _ (List.getElem?_eq_getElem hi')
      rcases Nat.lt_or_ge r[i] i with hlt | hge
      · obtain ⟨b, hb, hw⟩ := ih _ hlt (by omega)
        exact ⟨b, hb, (k2 hlt).trans hw⟩
      · exact ⟨r[i], List.getElem_mem hi', k1 hge⟩
  obtain ⟨i, hi, rfl⟩ := List.getElem_of_mem hp
  obtain ⟨b, hb, hw⟩ := key i (by omega)
  exact ⟨b, hb, by rw [← hw, List.getElem?_eq_getElem hi]⟩

/-- C69 (survivors). If at most `NP` individuals are non-dominated, all of them are in the new population; if there are more,
it has no other ones. -/
theorem C69_elitist (op : Fl.Ops K) (srt : (Nat → Nat → Bool) → List Nat → List Nat) (U W : List (List (Fl K) × List (Fl K)))
    (M : Nat) (hM : ∀ p ∈ U, p.2.length = M) (hU : 2 ≤ U.length) (NP : Nat) (h : InPlace op srt U NP W) :
    ((∀ S : List Nat, S.Nodup → (∀ i ∈ S, NonDominated U i) → S.length ≤ NP) →
      ∀ (i : Nat) (p : List (Fl K) × List (Fl K)), NonDominated U i → U[i]? = some p → p ∈ W) ∧
    ((∃ S : List Nat, S.Nodup ∧ (∀ i ∈ S, NonDominated U i) ∧ NP < S.length) →
      ∀ p ∈ W, ∃ i, NonDominated U i ∧ U[i]? = some p) := by
  constructor
  · intro hfew i p hi hp
    obtain ⟨r, h1, h2, h3, h4, h5, h6, h7⟩ := h
    obtain ⟨f0, hpre, hasc, hmem⟩ := h7 hfew
    obtain ⟨m, hm, hmi⟩ := List.getElem_of_mem ((hmem i).mpr hi)
    have hmr : m < r.length := lt_of_lt_of_le hm hpre.length_le
    have hri : r[m]? = some i := by rw [← hmi, List.getElem?_eq_getElem hmr, hpre.getElem hm]
    have hge : m ≤ i := by
      have : ∀ (k : Nat) (hk : k < f0.length), k ≤ f0[k] := by
        intro k
        induction k with
        | zero => intro _; omega
        | succ k ih =>
          intro hk
          have := List.pairwise_iff_getElem.mp hasc k (k + 1) (by omega) hk (by omega)
          have := ih (by omega)
          omega
      have := this m hm
      omega
    exact List.mem_of_getElem? (((h6 m i hri).1 hge).trans hp)
  · rintro ⟨S, hS1, hS2, hS3⟩
    obtain ⟨r, h1, h2, h4, hmem⟩ := C69_members op srt U W NP h
    have hlen : (U.map Prod.snd).length = U.length := by simp
    obtain ⟨t, ht, hL, -, hrk, -⟩ := C02_fnds_layers (U.map Prod.snd) (by rw [hlen]; exact hU) (fun p hp q hq => by
      obtain ⟨p', hp', rfl⟩ := List.mem_map.mp hp
      obtain ⟨q', hq', rfl⟩ := List.mem_map.mp hq
      exact (hM p' hp').trans (hM q' hq').symm)
    have h0 : 0 < t.fronts.length := by
      rcases Nat.eq_zero_or_pos t.fronts.length with h | h
      · have := hL.partition.length_eq
        rw [List.length_eq_zero_iff.mp h] at this
        simp at this
        rw [← this] at hU; simp at hU
      · exact h
    -- somebody non-dominated was not chosen
    obtain ⟨b, hb, hbr⟩ : ∃ b ∈ S, b ∉ r := by
      by_contra hc
      push Not at hc
      have := (List.subperm_of_subset hS1 hc).length_le
      omega
    intro p hp
    obtain ⟨a, ha, hpa⟩ := hmem p hp
    have hal := (List.getElem?_eq_some_iff.mp hpa).1
    obtain ⟨t', ra, rb, e1, e2, e3, e4, -⟩ := h4 a ha b (hS2 b hb).1 hbr
    rw [ht] at e1
    cases e1
    have hi0 : t.rank[b]? = some 0 := (hrk b 0 (by rw [hlen]; exact (hS2 b hb).1)).mpr
      ⟨_, List.getElem?_eq_getElem h0, (hL.first h0 b).mpr ⟨by rw [hlen]; exact (hS2 b hb).1, (hS2 b hb).2⟩⟩
    rw [hi0] at e3
    cases e3
    have : ra = 0 := by omega
    subst this
    obtain ⟨f, hf, haf⟩ := (hrk a 0 (by rw [hlen]; exact hal)).mp e2
    rw [List.getElem?_eq_getElem h0] at hf
    cases hf
    exact ⟨a, ⟨hal, ((hL.first h0 a).mp haf).2⟩, hpa⟩

/-- C69 (when it holds). If no chosen index is smaller than its position, the new population is the chosen one. -/
theorem C69_chosen (op : Fl.Ops K) (srt : (Nat → Nat → Bool) → List Nat → List Nat) (U W : List (List (Fl K) × List (Fl K)))
    (NP : Nat) (r : List Nat) (h1 : r.length = NP) (h2 : r.Nodup) (h3 : ∀ i ∈ r, i < U.length)
    (h4 : ∀ a ∈ r, ∀ b, b < U.length → b ∉ r → RankCrowdGE op srt (U.map Prod.snd) a b) (h5 : W.length = NP)
    (h6 : ∀ i b : Nat, r[i]? = some b → (i ≤ b → W[i]? = U[b]?) ∧ (b < i → W[i]? = W[b]?))
    (hge : ∀ i b : Nat, r[i]? = some b → i ≤ b) : ChosenFrom op srt U NP W := by
  refine ⟨r, h1, h2, h3, h4, ?_⟩
  apply List.ext_getElem?
  intro i
  rw [List.getElem?_map, List.getElem?_map]
  by_cases hi : i < r.length
  · have hb := List.getElem?_eq_getElem hi
    have hw := (h6 i _ hb).1 (hge i _ hb)
    have hu := h3 _ (List.getElem_mem hi)
    rw [hb, hw, List.getElem?_eq_getElem hu]
    simp [hu]
  · rw [List.getElem?_eq_none (by omega), List.getElem?_eq_none (by omega)]
    rfl

end

variable [Field K] [LinearOrder K]

/-- An evaluated point: of the right size, every component is NaN or within its bounds, and finite if `Num`. -/
def IhsPoint (Num : Prop) (P : AProb K) (x : List (Fl K)) : Prop :=
  x.length = P.info.nx ∧ (∀ (i : Nat) (l u w : Fl K), P.lb[i]? = some l → P.ub[i]? = some u → x[i]? = some w → NanOrIn l u w) ∧
    ∀ w ∈ x, Num → w.isFinite = true

/-- A run that ended with an exception: from the fitness function, from lack of memory, or the `std::invalid_argument` of a
random number that cannot be drawn. -/
def IhsFailed (B : List (Fl K) → Prop) (P : AProb K) (s0 : St K σ) (e : Exn) (s : St K σ) : Prop :=
  EvsBy B s0 s ∧ (UserFault P s.evs e ∨ e = .badAlloc ∧ s0.pop.faults ≠ [] ∨ e = .invalidArgument)

theorem ihsFailed_of {B : List (Fl K) → Prop} {P : AProb K} {s0 s : St K σ} {e : Exn} (h : FailedBy B P s0 e s) : IhsFailed B P s0 e s := by
  refine ⟨evsBy_of_failed h, ?_⟩
  obtain ⟨new, -, -, h | h⟩ := h
  · exact Or.inl h
  · exact Or.inr (Or.inl h)

/-- One generation: one point is evaluated and `Ins` relates it, and the populations before and after. -/
def IhsStep (Ins : List (Fl K) → List (Fl K) → Pop.State K → Pop.State K → Prop) (s s' : St K σ) : Prop :=
  ∃ x f, s'.evs = s.evs ++ [(x, .ok f)] ∧ s'.pop.id = s.pop.id ∧ Ins x f s.pop s'.pop

/-- What `ihs::evolve` leaves behind. -/
structure IhsDone (Num : Prop) (Ins : List (Fl K) → List (Fl K) → Pop.State K → Pop.State K → Prop) (P : AProb K) (gens : Nat)
    (s s' : St K σ) : Prop where
  inv : Inv P.info s'.pop
  id : s'.pop.id = s.pop.id
  steps : Steps (IhsStep Ins) gens s s'
  user : ∃ new, s'.evs = s.evs ++ new ∧ (∀ p ∈ new, ∃ h, p.2 = P.fit h p.1) ∧ ∀ p ∈ new, IhsPoint Num P p.1

/-- the numbers stay finite -/
def IhsFinite (v : IhsEnv K σ) (P : AProb K) (A : Ihs K) (s : St K σ) : Prop :=
  IhsNum v P A ∧ ∀ x ∈ s.pop.x, ∀ w ∈ x, w.isFinite = true

variable [IsStrictOrderedRing K] [FloorRing K]

theorem ihs_run {v : IhsEnv K σ} {rep : K → Prop} (hg : v.g.Lawful rep) {P : AProb K} (hP : SaneBounds P.lb P.ub P.nix)
    (hdim : P.info.nx = P.lb.length) (hst : P.info.stochastic = false) (hmo : P.info.nc = 0 ∨ P.info.nobj ≤ 1)
    {A : Ihs K} (hgens : A.gens + 1 < 2 ^ 32) {s : St K σ} (hs : Inv P.info s.pop) (hne : s.pop.id ≠ []) {fuel : Nat} (hfuel : A.gens < fuel)
    (Ins : List (Fl K) → List (Fl K) → Pop.State K → Pop.State K → Prop)
    (hins : ∀ (s1 : St K σ) (new : List (ECall K)) (x f : List (Fl K)), TrackedBy (IhsPoint (IhsFinite v P A s) P) P s new s1 →
      x.length = P.info.nx → f.length = P.info.nf →
      wp (if P.info.nobj = 1 then ihsSingle v P x f else ihsMulti v P x f)
        (fun _ s2 => TrackedBy (IhsPoint (IhsFinite v P A s) P) P s new s2 ∧ (∀ y ∈ s2.pop.x, y ∈ s1.pop.x ∨ y = x) ∧ Ins x f s1.pop s2.pop)
        (IhsFailed (IhsPoint (IhsFinite v P A s) P) P s) s1) :
    wpn True (ihsEvolve v P A fuel) (fun _ s' => IhsDone (IhsFinite v P A s) Ins P A.gens s s')
      (IhsFailed (IhsPoint (IhsFinite v P A s) P) P s) s := by
  generalize hNum : IhsFinite v P A s = Num at *
  have hN : Num → IhsNum v P A := fun n => (hNum ▸ n : IhsFinite v P A s).1
  have hx0 : ∀ x ∈ s.pop.x, ∀ w ∈ x, Num → w.isFinite = true := fun x hx w hw n => (hNum ▸ n : IhsFinite v P A s).2 x hx w hw
  have hnx : 0 < P.info.nx := by rw [hdim]; exact List.length_pos_iff.mpr hP.nonempty
  have hlen0 : 0 < s.pop.id.length := List.length_pos_iff.mpr hne
  unfold ihsEvolve
  rw [wpn_bind, wpn_get']
  split
  · rename_i h0
    rw [wpn_pure]
    exact ⟨hs, rfl, by rw [h0]; exact .refl s, [], by simp, by simp, by simp⟩
  rw [if_neg (by omega), if_neg (by omega), if_neg (by simp [hst]), wpn_bind]
  have key := wpn_genLoop (N := True) (body := ihsGen v P A fuel) hgens (E := IhsFailed (IhsPoint Num P) P s)
    (fun k (x : List (Fl K)) s' => ∃ new, TrackedBy (IhsPoint Num P) P s new s' ∧ Steps (IhsStep Ins) k s s' ∧
      (∀ y ∈ s'.pop.x, ∀ w ∈ y, Num → w.isFinite = true) ∧ x.length = P.info.nx ∧ ∀ w ∈ x, Num → w.isFinite = true) ?_ fuel 0
      (List.replicate P.info.nx (.fin 0)) s (by omega) (by omega)
      ⟨[], tracked_refl hs, .refl s, hx0, by simp, fun w hw _ => by rw [(List.mem_replicate.mp hw).2]; rfl⟩
  · refine key.mono ?_ (fun _ _ h => h)
    rintro _ s' ⟨new, t, st, -⟩
    exact ⟨t.inv, t.id, st, new, t.evs, t.user, t.box⟩
  · rintro k x s' hk ⟨new, t, st, hfin, hxl, hxf⟩
    have hxne : s'.pop.x ≠ [] := fun h => hne (List.length_eq_zero_iff.mp (by rw [← t.id, ← t.inv.wf.xs, h]; rfl))
    unfold ihsGen
    rw [wpn_bind, wpn_get', wpn_bind, wpn_onRng]
    refine (wpn_of_wp (wp_ihsPoint hg hN hdim hP.len hxne t.inv.wf.dimX hfin (by omega) (by omega) hxl hxf
      (E := fun e e' => IhsFailed (IhsPoint Num P) P s e { s' with e := e' }) ?_ s'.e)).mono ?_ (fun _ _ h => h)
    · exact fun e' => ⟨evsBy_of_tracked (tracked_rng t e'), Or.inr (Or.inr rfl)⟩
    rintro y e' ⟨hyl, hyf⟩
    rw [wpn_bind]
    have hstep : ∀ (i : Nat) (l u w : Fl K), P.lb[i]? = some l → P.ub[i]? = some u → (Num → w.isFinite = true) →
        Num → (reflectStep v.op l u w).isFinite = true := by
      intro i l u w hl hu hw n
      have h := hN n
      obtain ⟨l, rfl⟩ := fin_of_finite (h.finL l (List.mem_of_getElem? hl))
      obtain ⟨u, rfl⟩ := fin_of_finite (h.finU u (List.mem_of_getElem? hu))
      obtain ⟨o, ho⟩ := h.one
      have hcl : ∀ a w : K, ∃ c, v.op.sub (v.op.mul (v.op.add v.op.one v.op.one) (.fin a)) (.fin w) = .fin c := by
        intro a w
        rw [ho]
        obtain ⟨c1, e1⟩ := h.noOver.add o o
        rw [e1]
        obtain ⟨c2, e2⟩ := h.noOver.mul c1 a
        rw [e2]
        exact h.noOver.sub c2 w
      obtain ⟨w, rfl⟩ := fin_of_finite (hw n)
      unfold reflectStep
      dsimp only
      have h1 : ∃ w1 : K, (if Fl.lt (Fl.fin w) (.fin l) then v.op.sub (v.op.mul (v.op.add v.op.one v.op.one) (.fin l)) (.fin w) else .fin w) = .fin w1 := by
        split
        · exact hcl _ _
        · exact ⟨_, rfl⟩
      obtain ⟨w1, h1⟩ := h1
      rw [h1]
      split
      · obtain ⟨c, hc⟩ := hcl u w1
        rw [hc]; rfl
      · rfl
    have hr := reflection_ends (op := v.op) hP.len (hyl.trans hdim) (fun i l u hl hu => ⟨(hP.ordered i l u hl hu).1, (hP.ordered i l u hl hu).2.1⟩)
      (fun w => Num → w.isFinite = true) hstep hyf fuel
    rcases hr with hr | ⟨z, hr, z1, z2, z3⟩
    · rw [hr]; exact wpn_nofuel trivial
    · rw [hr, wpn_lift_ok, wpn_bind]
      have hz : IhsPoint Num P z := ⟨z1.trans hdim.symm, z3, z2⟩
      refine wpn_of_wp (wp_eval_by hz.1 (tracked_rng t e') hz ?_ (fun _ _ h => ihsFailed_of h))
      intro f s1 hf hp he ht1
      have hi := hins s1 _ z f ht1 hz.1 hf
      have fin : ∀ s2 : St K σ, TrackedBy (IhsPoint Num P) P s (new ++ [(z, .ok f)]) s2 ∧ (∀ y ∈ s2.pop.x, y ∈ s1.pop.x ∨ y = z) ∧ Ins z f s1.pop s2.pop →
          (((z, false) : List (Fl K) × Bool).2 = false ∧ ∃ new, TrackedBy (IhsPoint Num P) P s new s2 ∧ Steps (IhsStep Ins) (k + 1) s s2 ∧
          (∀ y ∈ s2.pop.x, ∀ w ∈ y, Num → w.isFinite = true) ∧ z.length = P.info.nx ∧ ∀ w ∈ z, Num → w.isFinite = true) := by
        rintro s2 ⟨t2, m2, i2⟩
        have hp' : s1.pop = s'.pop := hp
        refine ⟨rfl, _, t2, .snoc st ⟨z, f, ?_, ?_, hp' ▸ i2⟩, ?_, hz.1, z2⟩
        · rw [t2.evs, t.evs, List.append_assoc]
        · rw [t2.id, t.id]
        · intro y hy
          rcases m2 y hy with h | rfl
          · exact hfin y (hp' ▸ h)
          · exact z2
      split at hi
      · rename_i hn
        rw [if_pos hn, wpn_bind]
        exact (wpn_of_wp hi).mono (fun _ s2 h => fin s2 h) (fun _ _ h => h)
      · rename_i hn
        rw [if_neg hn, wpn_bind]
        exact (wpn_of_wp hi).mono (fun _ s2 h => fin s2 h) (fun _ _ h => h)

omit [IsStrictOrderedRing K] [FloorRing K] [LinearOrder K] [Field K] in
theorem individuals_set {p q : Pop.State K} {i : Nat} {x f : List (Fl K)} (hx : q.x = p.x.set i x) (hf : q.f = p.f.set i f) :
    individuals q = (individuals p).set i (x, f) := by
  unfold individuals
  rw [hx, hf]
  apply List.ext_getElem?
  intro j
  grind

/-! ## Several objectives -/

omit [FloorRing K] in
theorem wp_ihsMulti {v : IhsEnv K σ} (hsrt : ValidSort v.srt) {P : AProb K} (hnx : 0 < P.info.nx) (hnf : 2 ≤ P.info.nf) (hnobj : 0 < P.info.nobj)
    {B : List (Fl K) → Prop} {s s1 : St K σ} {new : List (ECall K)} (ht : TrackedBy B P s new s1) (hne : s.pop.id ≠ []) {x f : List (Fl K)}
    (hx : x.length = P.info.nx) (hf : f.length = P.info.nf) :
    wp (ihsMulti v P x f) (fun _ s2 => TrackedBy B P s new s2 ∧ (∀ y ∈ s2.pop.x, y ∈ s1.pop.x ∨ y = x) ∧
      InPlace v.op v.srt (individuals s1.pop ++ [(x, f)]) s1.pop.id.length (individuals s2.pop)) (IhsFailed B P s) s1 := by
  have hlen0 : 0 < s1.pop.id.length := by rw [ht.id]; exact List.length_pos_iff.mpr hne
  have hil : (individuals s1.pop).length = s1.pop.id.length := by
    unfold individuals
    rw [List.length_zip, ht.inv.wf.xs, ht.inv.wf.fs, min_self]
  have hfs : (individuals s1.pop ++ [(x, f)]).map Prod.snd = s1.pop.f ++ [f] := by
    rw [List.map_append]
    unfold individuals
    rw [List.map_snd_zip (by rw [ht.inv.wf.xs, ht.inv.wf.fs])]
    rfl
  have hM : ∀ p ∈ s1.pop.f ++ [f], p.length = P.info.nf := by
    intro p hp
    rcases List.mem_append.mp hp with hp | hp
    · exact ht.inv.wf.dimF p hp
    · rw [List.mem_singleton.mp hp]; exact hf
  obtain ⟨r, hsel, r1, r2, r3, r4⟩ := C05_select_best v.op v.srt hsrt (s1.pop.f ++ [f]) P.info.nf hM hnf s1.pop.id.length
  have hpl : (s1.pop.f ++ [f]).length = s1.pop.id.length + 1 := by rw [List.length_append, ht.inv.wf.fs]; rfl
  rw [hpl] at r1 r3
  have r1 : r.length = s1.pop.id.length := by omega
  unfold ihsMulti
  rw [wp_bind, wp_get', wp_bind, hsel, wp_lift_ok]
  have hUl : (individuals s1.pop ++ [(x, f)]).length = s1.pop.id.length + 1 := by rw [List.length_append, hil]; rfl
  have hUlast : (individuals s1.pop ++ [(x, f)])[s1.pop.id.length]? = some (x, f) := by
    rw [← hil, List.getElem?_append_right (le_refl _)]; simp
  refine (wp_range (fun t (_ : Unit) s2 => TrackedBy B P s new s2 ∧ (∀ y ∈ s2.pop.x, y ∈ s1.pop.x ∨ y = x) ∧
    (∀ j, t ≤ j → j < s1.pop.id.length → (individuals s2.pop)[j]? = (individuals s1.pop ++ [(x, f)])[j]?) ∧
    (∀ i b : Nat, i < t → r[i]? = some b → (i ≤ b → (individuals s2.pop)[i]? = (individuals s1.pop ++ [(x, f)])[b]?) ∧
      (b < i → (individuals s2.pop)[i]? = (individuals s2.pop)[b]?))) _ _ s1
    ⟨ht, fun y hy => Or.inl hy, fun j _ hj => by rw [List.getElem?_append_left (by omega)], fun i b hi => absurd hi (by omega)⟩ ?_).mono ?_
    (fun (e : Exn) s' (h : IhsFailed B P s e s') => h)
  · rintro t _ s2 hlt ⟨t2, m2, u2, d2⟩
    have htr : t < r.length := by omega
    have hbl := r3 _ (List.getElem_mem htr)
    have hid2 : s2.pop.id.length = s1.pop.id.length := by rw [t2.id, ht.id]
    have hl2 : (individuals s2.pop).length = s1.pop.id.length := by
      unfold individuals
      rw [List.length_zip, t2.inv.wf.xs, t2.inv.wf.fs, min_self, hid2]
    have hmono : ∀ (y h : List (Fl K)) (s3 : St K σ), s3.pop.x = s2.pop.x.set t y → s3.pop.f = s2.pop.f.set t h → (y ∈ s1.pop.x ∨ y = x) →
        TrackedBy B P s new s3 →
        (t ≤ r[t] → some (y, h) = (individuals s1.pop ++ [(x, f)])[r[t]]?) → (r[t] < t → some (y, h) = (individuals s2.pop)[r[t]]?) →
        TrackedBy B P s new s3 ∧ (∀ y ∈ s3.pop.x, y ∈ s1.pop.x ∨ y = x) ∧
        (∀ j, t + 1 ≤ j → j < s1.pop.id.length → (individuals s3.pop)[j]? = (individuals s1.pop ++ [(x, f)])[j]?) ∧
        (∀ i b : Nat, i < t + 1 → r[i]? = some b → (i ≤ b → (individuals s3.pop)[i]? = (individuals s1.pop ++ [(x, f)])[b]?) ∧
        (b < i → (individuals s3.pop)[i]? = (individuals s3.pop)[b]?)) := by
      intro y h s3 ex ef hy t3 c1 c2
      have es := individuals_set ex ef
      refine ⟨t3, ?_, ?_, ?_⟩
      · intro a ha
        rw [ex] at ha
        rcases List.mem_or_eq_of_mem_set ha with ha | rfl
        · exact m2 a ha
        · exact hy
      · intro j hj hjl
        rw [es, List.getElem?_set_ne (by omega)]
        exact u2 j (by omega) hjl
      · intro i b hi hib
        by_cases hit : i = t
        · subst hit
          rw [List.getElem?_eq_getElem htr] at hib
          cases hib
          rw [es, List.getElem?_set_self (by omega)]
          refine ⟨c1, fun hb => ?_⟩
          rw [List.getElem?_set_ne (by omega)]
          exact c2 hb
        · obtain ⟨d1, d2⟩ := d2 i b (by omega) hib
          rw [es, List.getElem?_set_ne (Ne.symm hit)]
          refine ⟨d1, fun hb => ?_⟩
          rw [List.getElem?_set_ne (by omega)]
          exact d2 hb
    unfold ihsRewrite
    rw [wp_bind, wp_lift_get htr, wp_bind, wp_get']
    split
    · rename_i hb
      refine wp_setXF_tracked (v := v.toEnv) hnx hnobj t2 (by omega) hx hf ?_ (fun _ _ h => ihsFailed_of h)
      intro s3 t3 _ ex ef _
      exact hmono x f s3 ex ef (Or.inr rfl) t3 (fun _ => by rw [hb, hid2, hUlast]) (fun h => by omega)
    · rename_i hb
      have hbx : r[t] < s2.pop.x.length := by rw [t2.inv.wf.xs]; omega
      have hbf : r[t] < s2.pop.f.length := by rw [t2.inv.wf.fs]; omega
      rw [wp_bind, wp_lift_get hbx, wp_bind, wp_lift_get hbf]
      refine wp_setXF_tracked (v := v.toEnv) hnx hnobj t2 (by omega) (t2.inv.wf.dimX _ (List.getElem_mem hbx)) (t2.inv.wf.dimF _ (List.getElem_mem hbf)) ?_
        (fun _ _ h => ihsFailed_of h)
      intro s3 t3 _ ex ef _
      have hread : (individuals s2.pop)[r[t]]? = some (s2.pop.x[r[t]], s2.pop.f[r[t]]) :=
        List.getElem?_zip_eq_some.mpr ⟨List.getElem?_eq_getElem hbx, List.getElem?_eq_getElem hbf⟩
      exact hmono _ _ s3 ex ef (m2 _ (List.getElem_mem hbx)) t3 (fun h => by rw [← u2 _ h (by omega), hread]) (fun _ => hread.symm)
  · rintro _ s2 ⟨t2, m2, -, d2⟩
    have hid2 : s2.pop.id.length = s1.pop.id.length := by rw [t2.id, ht.id]
    have hl2 : (individuals s2.pop).length = s1.pop.id.length := by
      unfold individuals
      rw [List.length_zip, t2.inv.wf.xs, t2.inv.wf.fs, min_self, hid2]
    refine ⟨t2, m2, r, r1, r2, by rw [hUl]; exact r3, ?_, hl2, ?_, ?_⟩
    · intro a ha b hb hbr
      rw [hfs]
      exact r4 a ha b (by rw [hpl]; omega) hbr
    · intro i b hib
      exact d2 i b (by rw [← r1]; exact (List.getElem?_eq_some_iff.mp hib).1) hib
    · intro hfew
      obtain ⟨t, hft, hL, -, hrk, -⟩ := C02_fnds_layers (s1.pop.f ++ [f]) (by omega) (fun p hp q hq => (hM p hp).trans (hM q hq).symm)
      obtain ⟨f0, rest, hfr, hasc⟩ := fnds_head hft
      have htot : t.fronts.flatten.length = (s1.pop.f ++ [f]).length := by simpa using hL.partition.length_eq
      have hmem : ∀ i, i ∈ f0 ↔ NonDominated (individuals s1.pop ++ [(x, f)]) i := by
        intro i
        have := hL.first (by rw [hfr]; simp) i
        simp only [hfr, List.getElem_cons_zero] at this
        rw [this, NonDominated, hfs, hUl, hpl]
      have hnd : f0.Nodup := hasc.imp (fun h => Nat.ne_of_lt h)
      have hle := hfew f0 hnd (fun i hi => (hmem i).mp hi)
      exact ⟨f0, select_prefix hsel hlen0 (by omega) hft htot hfr hle, hasc, hmem⟩

/-- C69 (several objectives). Every generation evaluates one point; the new population is obtained from the old one and the new
individual by the selection of `select_best_N_mo`, written in place (`InPlace`). `_partial`: the statement asks for exactly the
chosen individuals, which is false (`C69_false`): writing in place may lose some of them and keep others twice. What remains
true is in `C69_members`, `C69_elitist` and `C69_chosen`. The reflection at the bounds need not end (C48). -/
theorem C69_multi_partial (v : IhsEnv K σ) (rep : K → Prop) (hg : v.g.Lawful rep) (hsrt : ValidSort v.srt) (P : AProb K)
    (hP : SaneBounds P.lb P.ub P.nix) (hdim : P.info.nx = P.lb.length) (hst : P.info.stochastic = false) (hnc : P.info.nc = 0)
    (hnobj : 2 ≤ P.info.nobj) (A : Ihs K) (hgens : A.gens + 1 < 2 ^ 32) (s : St K σ) (hs : Inv P.info s.pop) (hne : s.pop.id ≠ [])
    (fuel : Nat) (hfuel : A.gens < fuel) :
    wpn True (ihsEvolve v P A fuel) (fun _ s' => IhsDone (IhsFinite v P A s)
        (fun x f p p' => InPlace v.op v.srt (individuals p ++ [(x, f)]) p.id.length (individuals p')) P A.gens s s')
      (IhsFailed (IhsPoint (IhsFinite v P A s) P) P s) s := by
  refine ihs_run hg hP hdim hst (Or.inl hnc) hgens hs hne hfuel _ ?_
  intro s1 new x f ht hx hf
  rw [if_neg (by omega)]
  exact wp_ihsMulti hsrt (by rw [hdim]; exact List.length_pos_iff.mpr hP.nonempty) (by unfold Info.nf; omega) (by omega) ht hne hx hf

/-! ## One objective -/

/-- One slot, the one of a worst individual, may be overwritten by the new individual; it is if and only if `Acc`. -/
def ReplaceWorst (Acc : List (Fl K) → List (Fl K) → Prop) (Worst : Pop.State K → List (Fl K) → Prop) (x f : List (Fl K))
    (p p' : Pop.State K) : Prop :=
  ∃ (w : Nat) (fw : List (Fl K)), p.f[w]? = some fw ∧ Worst p fw ∧ (Acc f fw → individuals p' = (individuals p).set w (x, f)) ∧
    (¬ Acc f fw → individuals p' = individuals p)

/-- the new objective is not larger (never with NaN) -/
def NotLarger (f fw : List (Fl K)) : Prop := ∃ a b, fw[0]? = some a ∧ f[0]? = some b ∧ Fl.ge a b = true

omit [FloorRing K] in
theorem wp_ihsSingle {v : IhsEnv K σ} {P : AProb K} (hnx : 0 < P.info.nx) (hnobj : P.info.nobj = 1)
    {B : List (Fl K) → Prop} {s s1 : St K σ} {new : List (ECall K)} (ht : TrackedBy B P s new s1) {x f : List (Fl K)}
    (hx : x.length = P.info.nx) (hf : f.length = P.info.nf) (Worst : Pop.State K → List (Fl K) → Prop)
    (hw : ∃ w fw, Pop.worstIdx v.srt v.sq P.info s1.pop.f s1.pop.tol = .ok w ∧ s1.pop.f[w]? = some fw ∧ Worst s1.pop fw) :
    wp (ihsSingle v P x f) (fun _ s2 => TrackedBy B P s new s2 ∧ (∀ y ∈ s2.pop.x, y ∈ s1.pop.x ∨ y = x) ∧
      ReplaceWorst (fun f fw => if P.info.nc = 0 then NotLarger f fw else Con.compareFc v.sq f fw P.info.nec s1.pop.tol = .ok true) Worst x f s1.pop s2.pop)
      (IhsFailed B P s) s1 := by
  obtain ⟨w, fw, hw1, hw2, hw3⟩ := hw
  obtain ⟨hwl, rfl⟩ := List.getElem?_eq_some_iff.mp hw2
  have hnf : 0 < P.info.nf := by unfold Info.nf; omega
  have hfw := ht.inv.wf.dimF _ (List.getElem_mem hwl)
  have hid : w < s1.pop.id.length := by rw [← ht.inv.wf.fs]; exact hwl
  -- the two ends
  have yes : ∀ {Acc : List (Fl K) → List (Fl K) → Prop}, Acc f s1.pop.f[w] → wp (onPop (Pop.setXF v.sq P.info w x f)) (fun _ s2 => TrackedBy B P s new s2 ∧
      (∀ y ∈ s2.pop.x, y ∈ s1.pop.x ∨ y = x) ∧ ReplaceWorst Acc Worst x f s1.pop s2.pop) (IhsFailed B P s) s1 := by
    intro Acc hacc
    refine wp_setXF_tracked (v := v.toEnv) hnx (by omega) ht hid hx hf ?_ (fun _ _ h => ihsFailed_of h)
    intro s2 t2 _ ex ef _
    refine ⟨t2, ?_, w, _, hw2, hw3, fun _ => individuals_set ex ef, fun h => absurd hacc h⟩
    intro y hy
    rw [ex] at hy
    rcases List.mem_or_eq_of_mem_set hy with h | h
    · exact Or.inl h
    · exact Or.inr h
  have no : ∀ {Acc : List (Fl K) → List (Fl K) → Prop}, ¬ Acc f s1.pop.f[w] → wp (pure () : Run (St K σ) Unit) (fun _ s2 => TrackedBy B P s new s2 ∧
      (∀ y ∈ s2.pop.x, y ∈ s1.pop.x ∨ y = x) ∧ ReplaceWorst Acc Worst x f s1.pop s2.pop) (IhsFailed B P s) s1 :=
    fun {Acc} hacc => ⟨ht, fun y hy => Or.inl hy, w, _, hw2, hw3, fun h => absurd h hacc, fun _ => rfl⟩
  unfold ihsSingle
  rw [wp_bind, wp_get', wp_bind, hw1, wp_lift_ok, wp_bind, wp_lift_get hwl]
  split
  · rename_i hnc
    rw [wp_bind, wp_lift_get (by omega), wp_bind, wp_lift_get (by omega)]
    have e1 : s1.pop.f[w][0]? = some s1.pop.f[w][0] := List.getElem?_eq_getElem (by omega)
    have e2 : f[0]? = some f[0] := List.getElem?_eq_getElem (by omega)
    split
    · rename_i h
      exact yes (Acc := NotLarger) ⟨_, _, e1, e2, h⟩
    · rename_i h
      refine no (Acc := NotLarger) ?_
      rintro ⟨a, b, h1, h2, h3⟩
      rw [e1] at h1; rw [e2] at h2
      cases h1; cases h2
      exact h h3
  · rename_i hnc
    have htol := ht.inv.tol
    have hval : ∀ g : List (Fl K), g.length = P.info.nf → Con.Valid g P.info.nec s1.pop.tol := by
      intro g hg
      refine ⟨?_, ?_⟩ <;> simp only [Info.nf, Info.nc] at * <;> omega
    obtain ⟨b, hb⟩ := Con.compareFc_isOk (sq := v.sq) (hval f hf) (hval _ hfw)
    rw [wp_bind, hb, wp_lift_ok]
    split
    · rename_i h
      subst h
      exact yes (Acc := fun f fw => Con.compareFc v.sq f fw P.info.nec s1.pop.tol = .ok true) hb
    · rename_i h
      refine no (Acc := fun f fw => Con.compareFc v.sq f fw P.info.nec s1.pop.tol = .ok true) ?_
      intro h'
      rw [hb] at h'
      cases h'
      exact h rfl

/-- C69 (one objective, no constraints). Every generation evaluates one point; it replaces an individual if and only if its
objective is not larger, and that individual has the largest objective of all (if no objective is NaN). -/
theorem C69_single (v : IhsEnv K σ) (rep : K → Prop) (hg : v.g.Lawful rep) (P : AProb K)
    (hP : SaneBounds P.lb P.ub P.nix) (hdim : P.info.nx = P.lb.length) (hst : P.info.stochastic = false) (hnc : P.info.nc = 0)
    (hnobj : P.info.nobj = 1) (A : Ihs K) (hgens : A.gens + 1 < 2 ^ 32) (s : St K σ) (hs : Inv P.info s.pop) (hne : s.pop.id ≠ [])
    (hsz : s.pop.id.length ≤ 2 ^ 63) (fuel : Nat) (hfuel : A.gens < fuel) :
    wpn True (ihsEvolve v P A fuel) (fun _ s' => IhsDone (IhsFinite v P A s)
        (ReplaceWorst NotLarger (fun p fw => (∀ g ∈ p.f, Fl.nan ∉ g) → ∀ g ∈ p.f, ¬ Lower fw g)) P A.gens s s')
      (IhsFailed (IhsPoint (IhsFinite v P A s) P) P s) s := by
  refine ihs_run hg hP hdim hst (Or.inl hnc) hgens hs hne hfuel _ ?_
  intro s1 new x f ht hx hf
  rw [if_pos hnobj]
  have hfl : s1.pop.f.length = s.pop.id.length := by rw [ht.inv.wf.fs, ht.id]
  have hfne : s1.pop.f ≠ [] := fun h => hne (List.length_eq_zero_iff.mp (by rw [← hfl, h]; rfl))
  refine (wp_ihsSingle (by rw [hdim]; exact List.length_pos_iff.mpr hP.nonempty) hnobj ht hx hf
    (fun p fw => (∀ g ∈ p.f, Fl.nan ∉ g) → ∀ g ∈ p.f, ¬ Lower fw g) ?_).mono ?_ (fun _ _ h => h)
  · obtain ⟨w, hw, hwl⟩ := (idx_lt (srt := v.srt) (sq := v.sq) hnobj hnc hfne (by rw [hfl]; exact hsz) s1.pop.tol).2
    refine ⟨w, _, hw, List.getElem?_eq_getElem hwl, ?_⟩
    intro hnan
    obtain ⟨w', fw, h1, h2, h3⟩ := (C17_unconstrained_partial v.srt v.sq P.info hnobj hnc s1.pop.f hfne (by rw [hfl]; exact hsz)
      ht.inv.wf.dimF hnan s1.pop.tol).2
    rw [hw] at h1
    cases h1
    rw [List.getElem?_eq_getElem hwl] at h2
    cases h2
    exact h3
  · rintro _ s2 h
    simp only [if_pos hnc] at h
    exact h

/-- C69 (one objective, constraints). Every generation evaluates one point; it replaces an individual if and only if it is
preferred by `compare_fc`, and that individual is preferred to nobody. `_partial`: exact arithmetic, and not both kinds of
constraints (the sort in `worst_idx()` can then be undefined, C13). -/
theorem C69_constrained_partial (v : IhsEnv ℝ σ) (hsrt : ValidSort v.srt) (hsq : v.sq = Fl.sqrtR) (rep : ℝ → Prop) (hg : v.g.Lawful rep) (P : AProb ℝ)
    (hP : SaneBounds P.lb P.ub P.nix) (hdim : P.info.nx = P.lb.length) (hst : P.info.stochastic = false) (hnc : 0 < P.info.nc)
    (hk : P.info.nec = 0 ∨ P.info.nic = 0)
    (hnobj : P.info.nobj = 1) (A : Ihs ℝ) (hgens : A.gens + 1 < 2 ^ 32) (s : St ℝ σ) (hs : Inv P.info s.pop) (hne : s.pop.id ≠ [])
    (fuel : Nat) (hfuel : A.gens < fuel) :
    wpn True (ihsEvolve v P A fuel) (fun _ s' => IhsDone (IhsFinite v P A s)
        (ReplaceWorst (FcBetter P.info.nec s.pop.tol) (fun p fw => ∀ g ∈ p.f, ¬ FcBetter P.info.nec s.pop.tol fw g)) P A.gens s s')
      (IhsFailed (IhsPoint (IhsFinite v P A s) P) P s) s := by
  refine ihs_run hg hP hdim hst (Or.inr (by omega)) hgens hs hne hfuel _ ?_
  intro s1 new x f ht hx hf
  rw [if_pos hnobj]
  have hfl : s1.pop.f.length = s.pop.id.length := by rw [ht.inv.wf.fs, ht.id]
  have hne1 : s1.pop.id ≠ [] := by rw [ht.id]; exact hne
  refine (wp_ihsSingle (by rw [hdim]; exact List.length_pos_iff.mpr hP.nonempty) hnobj ht hx hf
    (fun p fw => ∀ g ∈ p.f, ¬ FcBetter P.info.nec s.pop.tol fw g) ?_).mono ?_ (fun _ _ h => h)
  · obtain ⟨w, fw, h1, h2, h3⟩ := (ranked_constrained v.toEnv hsrt hsq P hnobj hnc hk s1.pop ht.inv hne1).2
    exact ⟨w, fw, h1, h2, by rw [← ht.tol]; exact h3⟩
  · rintro _ s2 h
    simp only [if_neg (by omega : ¬ P.info.nc = 0), ht.tol, hsq] at h
    exact h

/-! ## Errors -/

omit [IsStrictOrderedRing K] in
/-- C69 (checks). Nothing happens for zero generations; otherwise an empty population, constraints together with several
objectives, or a stochastic problem make `evolve` throw `std::invalid_argument` before anything has happened. -/
theorem C69_throws (v : IhsEnv K σ) (P : AProb K) (A : Ihs K) (fuel : Nat) (s : St K σ) :
    (A.gens = 0 → ihsEvolve v P A fuel s = (.ok (), s)) ∧
    (A.gens ≠ 0 → s.pop.id = [] ∨ P.info.nc ≠ 0 ∧ 1 < P.info.nobj ∨ P.info.stochastic = true →
      ihsEvolve v P A fuel s = (.throws .invalidArgument, s)) := by
  unfold ihsEvolve
  constructor
  · intro h
    show Run.bind Run.get _ s = _
    simp only [Run.bind, Run.get]
    rw [if_pos h]; rfl
  · intro h0 h
    show Run.bind Run.get _ s = _
    simp only [Run.bind, Run.get]
    rw [if_neg h0]
    split
    · rfl
    · rename_i h1
      split
      · rfl
      · rename_i h2
        split
        · rfl
        · rename_i h3
          exfalso
          rcases h with h | h | h
          · exact h1 (by rw [h]; rfl)
          · exact h2 h
          · exact h3 h

omit [IsStrictOrderedRing K] [FloorRing K] in
/-- C69 (constructor). The parameters are accepted exactly when the three probabilities are in [0, 1] or NaN, `ppar_min` is not
above `ppar_max`, `bw_min` is not zero or negative and `bw_max` is not below `bw_min`. -/
theorem C69_ctor (gens : Nat) (phmcr pparMin pparMax bwMin bwMax : Fl K) :
    (ihsCtor gens phmcr pparMin pparMax bwMin bwMax = .ok ⟨gens, phmcr, pparMin, pparMax, bwMin, bwMax⟩ ↔
      (phmcr = .nan ∨ .fin 0 ≤ phmcr ∧ phmcr ≤ .fin 1) ∧ (pparMin = .nan ∨ .fin 0 ≤ pparMin ∧ pparMin ≤ .fin 1) ∧
      (pparMax = .nan ∨ .fin 0 ≤ pparMax ∧ pparMax ≤ .fin 1) ∧ (pparMin = .nan ∨ pparMax = .nan ∨ pparMin ≤ pparMax) ∧
      .fin 0 < bwMin ∧ (bwMin = .nan ∨ bwMax = .nan ∨ bwMin ≤ bwMax)) ∧
    (ihsCtor gens phmcr pparMin pparMax bwMin bwMax = .ok ⟨gens, phmcr, pparMin, pparMax, bwMin, bwMax⟩ ∨
      ihsCtor gens phmcr pparMin pparMax bwMin bwMax = .throws .invalidArgument) := by
  have k1 : ∀ a : Fl K, (a = .nan ∨ .fin 0 ≤ a ∧ a ≤ .fin 1) ↔ Fl.gt a (.fin 1) = false ∧ Fl.lt a (.fin 0) = false := by
    intro a
    cases a <;> simp [Fl.gt, Fl.lt, Fl.le_def, Fl.cls, and_comm]
  have k2 : ∀ a b : Fl K, (a = .nan ∨ b = .nan ∨ a ≤ b) ↔ Fl.lt b a = false := by
    intro a b
    by_cases ha : a = .nan
    · subst ha; cases b <;> simp [Fl.lt]
    · by_cases hb : b = .nan
      · subst hb; cases a <;> simp [Fl.lt]
      · rw [← Bool.not_eq_true, Fl.lt_iff hb ha, not_lt]
        simp [ha, hb]
  have k3 : ∀ a : Fl K, .fin 0 < a ↔ Fl.le a (.fin 0) = false := by
    intro a
    by_cases ha : a = .nan
    · subst ha; simp [Fl.le, Fl.lt, Fl.eq, Fl.lt_def, Fl.cls]
    · rw [← Bool.not_eq_true, Fl.le_iff ha (by simp), not_le]
  rw [k1, k1, k1, k2, k2, k3]
  unfold ihsCtor
  rw [show Fl.gt pparMin pparMax = Fl.lt pparMax pparMin from rfl]
  constructor
  · cases Fl.gt phmcr (.fin 1) <;> cases Fl.lt phmcr (.fin 0) <;> cases Fl.gt pparMin (.fin 1) <;> cases Fl.lt pparMin (.fin 0) <;>
      cases Fl.gt pparMax (.fin 1) <;> cases Fl.lt pparMax (.fin 0) <;> cases Fl.lt pparMax pparMin <;> cases Fl.le bwMin (.fin 0) <;>
      cases Fl.lt bwMax bwMin <;> simp
  · split
    · exact Or.inr rfl
    split
    · exact Or.inr rfl
    split
    · exact Or.inr rfl
    · exact Or.inl rfl

/-! ## The statement is false -/

/-- One variable in [0, 10], two objectives: (x, x). -/
def ihsDemo : AProb ℚ := ⟨⟨1, 2, 0, 0, false⟩, [.fin 0], [.fin 10], 0, fun _ x => .ok (x ++ x)⟩

def ihsDemoEnv : IhsEnv ℚ (List ℚ) := { algDemoEnv with ex := id, lg := id }

def ihsDemoAlg : Ihs ℚ := ⟨1, .fin (1 / 2), .fin 0, .fin 1, .fin 1, .fin 1⟩

/-- Two individuals; the second one dominates the first. -/
def ihsDemoSt : St ℚ (List ℚ) :=
  ⟨⟨[1, 2], [[.fin 1], [.fin 0]], [[.fin 1, .fin 1], [.fin 0, .fin 0]], [], [], [], fun n => n, []⟩, [1, 1 / 2], []⟩

theorem ihsDemo_inv : Inv ihsDemo.info ihsDemoSt.pop where
  wf := ⟨rfl, rfl, by decide +kernel, by decide +kernel⟩
  ch := Or.inl ⟨rfl, rfl⟩
  tol := rfl

theorem ihsDemo_sane : SaneBounds ihsDemo.lb ihsDemo.ub ihsDemo.nix where
  nonempty := by simp [ihsDemo]
  len := rfl
  ordered i l u hl hu := by
    match i with
    | 0 => cases hl; cases hu; exact ⟨by simp, by simp, by simp⟩
    | i + 1 => cases hl
  nixLe := by simp [ihsDemo]
  intL i a hi ha := by
    match i with
    | 0 => cases ha; exact ⟨0, by simp⟩
    | i + 1 => cases ha
  intU i a hi ha := by
    match i with
    | 0 => cases ha; exact ⟨10, by simp⟩
    | i + 1 => cases ha

/-- C69 is false: the new point, 5, is dominated by both individuals, so the chosen individuals are the two old ones, best first.
The first slot is overwritten with the second individual; then the second slot is overwritten with what is now in the first
one. The individual 1 is lost, and 0 is there twice. -/
theorem C69_false :
    let s' := (ihsEvolve ihsDemoEnv ihsDemo ihsDemoAlg 9 ihsDemoSt).2
    s'.evs = [([.fin 5], .ok [.fin 5, .fin 5])] ∧
    individuals s'.pop = [([.fin 0], [.fin 0, .fin 0]), ([.fin 0], [.fin 0, .fin 0])] ∧
    ¬ ChosenFrom ihsDemoEnv.op ihsDemoEnv.srt (individuals ihsDemoSt.pop ++ [([.fin 5], [.fin 5, .fin 5])]) 2 (individuals s'.pop) := by
  have h1 : individuals (ihsEvolve ihsDemoEnv ihsDemo ihsDemoAlg 9 ihsDemoSt).2.pop =
      [([.fin 0], [.fin 0, .fin 0]), ([.fin 0], [.fin 0, .fin 0])] := by decide +kernel
  refine ⟨by decide +kernel, h1, ?_⟩
  rw [h1]
  rintro ⟨r, r1, r2, r3, -, r5⟩
  obtain ⟨a, b, rfl⟩ := List.length_eq_two.mp r1
  have key : ∀ a : Nat, some (([.fin 0], [.fin 0, .fin 0]) : List (Fl ℚ) × List (Fl ℚ)) =
      (individuals ihsDemoSt.pop ++ [([.fin 5], [.fin 5, .fin 5])])[a]? → a = 1 := by
    intro a h
    match a with
    | 0 => exact absurd h (by decide +kernel)
    | 1 => rfl
    | 2 => exact absurd h (by decide +kernel)
    | a + 3 => exact absurd h (by simp [individuals, ihsDemoSt])
  simp only [List.map_cons, List.map_nil, List.cons.injEq, and_true] at r5
  have ha := key a r5.1
  have hb := key b r5.2
  rw [ha, hb] at r2
  simp at r2

/-! ## Non-triviality -/

example : wpn True (ihsEvolve ihsDemoEnv ihsDemo ihsDemoAlg 9)
    (fun _ s' => IhsDone (IhsFinite ihsDemoEnv ihsDemo ihsDemoAlg ihsDemoSt)
      (fun x f p p' => InPlace ihsDemoEnv.op ihsDemoEnv.srt (individuals p ++ [(x, f)]) p.id.length (individuals p')) ihsDemo ihsDemoAlg.gens ihsDemoSt s')
    (IhsFailed (IhsPoint (IhsFinite ihsDemoEnv ihsDemo ihsDemoAlg ihsDemoSt) ihsDemo) ihsDemo ihsDemoSt) ihsDemoSt :=
  C69_multi_partial ihsDemoEnv _ demoGen_lawful insSort_valid ihsDemo ihsDemo_sane rfl rfl rfl (by simp [ihsDemo]) ihsDemoAlg
    (by norm_num [ihsDemoAlg]) ihsDemoSt ihsDemo_inv (by simp [ihsDemoSt]) 9 (by simp [ihsDemoAlg])

/-- the arithmetic of the example -/
example : IhsFinite ihsDemoEnv ihsDemo ihsDemoAlg ihsDemoSt := by
  refine ⟨⟨noOverflow_exact, ⟨1, rfl⟩, by decide +kernel, by decide +kernel, ?_⟩, by decide +kernel⟩
  intro gen h1 h2
  have : gen = 1 := by simp [ihsDemoAlg] at h2; omega
  subst this
  decide +kernel

/-- a better point replaces the dominated one -/
example : individuals (ihsEvolve ihsDemoEnv ihsDemo ihsDemoAlg 9 { ihsDemoSt with pop := { ihsDemoSt.pop with
    x := [[.fin 0], [.fin 7]], f := [[.fin 0, .fin 0], [.fin 7, .fin 7]] } }).2.pop =
    [([.fin 0], [.fin 0, .fin 0]), ([.fin 5], [.fin 5, .fin 5])] := by decide +kernel

example : wpn True (ihsEvolve ihsDemoEnv algDemo ihsDemoAlg 9)
    (fun _ s' => IhsDone (IhsFinite ihsDemoEnv algDemo ihsDemoAlg algDemoSt)
      (ReplaceWorst NotLarger (fun p fw => (∀ g ∈ p.f, Fl.nan ∉ g) → ∀ g ∈ p.f, ¬ Lower fw g)) algDemo ihsDemoAlg.gens algDemoSt s')
    (IhsFailed (IhsPoint (IhsFinite ihsDemoEnv algDemo ihsDemoAlg algDemoSt) algDemo) algDemo algDemoSt) algDemoSt :=
  C69_single ihsDemoEnv _ demoGen_lawful algDemo ihsDemo_sane rfl rfl rfl rfl ihsDemoAlg
    (by norm_num [ihsDemoAlg]) algDemoSt algDemo_inv (by simp [algDemoSt]) (by simp [algDemoSt]) 9 (by simp [ihsDemoAlg])

/-- one new point, taken from the last individual, moved by a quarter of the range -/
example : (ihsEvolve ihsDemoEnv algDemo { ihsDemoAlg with bwMin := .fin (1 / 2), bwMax := .fin (1 / 2) } 9
    { algDemoSt with e := [1 / 4, 1, 1 / 4, 1 / 4] }).2.evs.map Prod.fst = [[.fin (9 / 2)]] := by decide +kernel

end Verif.Props
