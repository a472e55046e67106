import Verif.Proof.Gwo

/-!
# C71: `gwo`
-/

set_option autoImplicit false

namespace Verif.Props

open Verif Run Prob Pop Alg Rnd

variable {K σ : Type} [Field K] [LinearOrder K]

/-- The move number `n` (counted from 0 over the whole run): the leaders are individuals of the initial population or were
evaluated before; their scores are those of `Leaders3`; the agent leaves the position it had `NP` moves ago. -/
def GwoMoved (v : Env K σ) (P : AProb K) (A : Gwo) (NP : Nat) (a0 b0 d0 : Fl K) (init ev : List (List (Fl K) × List (Fl K)))
    (n : Nat) : Prop :=
  ∃ wa ∈ init ++ ev.take n, ∃ wb ∈ init ++ ev.take n, ∃ wd ∈ init ++ ev.take n,
    Leaders3 a0 b0 d0 ((ev.take n).map objOf) (objOf wa, objOf wb, objOf wd) ∧
    ∀ old new : List (Fl K) × List (Fl K), (init ++ ev)[n]? = some old → ev[n]? = some new →
      PulledAll v.op P (gwoA v A (n / NP + 1)) wa.1 wb.1 wd.1 old.1 new.1

/-- Invariant, `k` generations and `i` agents done. -/
structure GwoInv (v : Env K σ) (P : AProb K) (A : Gwo) (Num : Prop) (s0 : St K σ) (a0 b0 d0 : Fl K) (k i : Nat)
    (ev : List (List (Fl K) × List (Fl K))) (c : GwoVars K) (s : St K σ) : Prop where
  tr : TrackedBy (Made Num P) P s0 (asCalls ev) s
  cnt : ev.length = k * s0.pop.id.length + i
  made : ∀ p ∈ individuals s0.pop ++ ev, Made Num P p.1
  ind : ∀ j < s0.pop.id.length, (individuals s.pop)[j]? =
    (individuals s0.pop ++ ev)[k * s0.pop.id.length + j + if j < i then s0.pop.id.length else 0]?
  xs : c.xs = s.pop.x
  lead : Leaders3 a0 b0 d0 (ev.map objOf) (c.al.1, c.be.1, c.de.1)
  wa : ∃ w ∈ individuals s0.pop ++ ev, c.al = (objOf w, w.1)
  wb : ∃ w ∈ individuals s0.pop ++ ev, c.be = (objOf w, w.1)
  wd : ∃ w ∈ individuals s0.pop ++ ev, c.de = (objOf w, w.1)
  moved : ∀ n < ev.length, GwoMoved v P A s0.pop.id.length a0 b0 d0 (individuals s0.pop) ev n

theorem gwoMoved_append {v : Env K σ} {P : AProb K} {A : Gwo} {NP : Nat} {a0 b0 d0 : Fl K}
    {init ev : List (List (Fl K) × List (Fl K))} {n : Nat} (hn : n < ev.length) (hNP : 0 < init.length)
    (h : GwoMoved v P A NP a0 b0 d0 init ev n) (q : List (Fl K) × List (Fl K)) :
    GwoMoved v P A NP a0 b0 d0 init (ev ++ [q]) n := by
  obtain ⟨wa, ha, wb, hb, wd, hd, hl, hm⟩ := h
  unfold GwoMoved
  rw [List.take_append_of_le_length hn.le]
  refine ⟨wa, ha, wb, hb, wd, hd, hl, fun old new h1 h2 => hm old new ?_ ?_⟩
  · rw [← List.append_assoc, List.getElem?_append_left (by simp; omega)] at h1; exact h1
  · rw [List.getElem?_append_left hn] at h2; exact h2

/-- the leaders after the three `if`s -/
theorem gwo_lead {f : Fl K} {x : List (Fl K)} {c c' : GwoVars K} (hc : c' = gwoThird f x (gwoSecond f x (gwoFirst f x c)))
    {R : Wolf K → Prop} (hf : R (f, x)) (ha : R c.al) (hb : R c.be) (hd : R c.de) :
    R c'.al ∧ R c'.be ∧ R c'.de ∧ c'.xs = c.xs ∧ c'.log = c.log := by
  subst hc
  unfold gwoThird gwoSecond gwoFirst
  split_ifs <;> simp_all

section
variable [IsStrictOrderedRing K]

theorem wp_gwoAgent {v : Env K σ} {rep : K → Prop} (hg : v.g.Lawful rep) {P : AProb K} (hP : SaneBounds P.lb P.ub P.nix)
    (hdim : P.info.nx = P.lb.length) (hnobj : P.info.nobj = 1) (hnc : P.info.nc = 0) {A : Gwo} {Num : Prop}
    (hN : Num → GwoNum v P A) {s0 s : St K σ} (hs0 : Inv P.info s0.pop) {a0 b0 d0 : Fl K} (hba : b0 ≤ a0) (hdb : d0 ≤ b0) {k i : Nat}
    (hi : i < s0.pop.id.length) {ev : List (List (Fl K) × List (Fl K))} {c : GwoVars K}
    (h : GwoInv v P A Num s0 a0 b0 d0 k i ev c s) :
    wp (gwoAgent v P (gwoA v A (k + 1)) c i) (fun c' s' => c'.log = c.log ∧ ∃ q, GwoInv v P A Num s0 a0 b0 d0 k (i + 1) (ev ++ [q]) c' s')
      (FailedBy (Made Num P) P s0) s := by
  have hnf : P.info.nf = 1 := by simp only [Info.nf, Info.nc] at *; omega
  have hnx0 : 0 < P.info.nx := by rw [hdim]; exact List.length_pos_iff.mpr hP.nonempty
  have hid := h.tr.id
  have hxl := h.tr.inv.wf.xs
  have hfl := h.tr.inv.wf.fs
  have hil : (individuals s0.pop).length = s0.pop.id.length := by
    unfold individuals; rw [List.length_zip, hs0.wf.xs, hs0.wf.fs, Nat.min_self]
  have hcx : i < c.xs.length := by rw [h.xs, hxl, hid]; exact hi
  have hix : i < s.pop.x.length := by rw [hxl, hid]; exact hi
  have hif : i < s.pop.f.length := by rw [hfl, hid]; exact hi
  have hold : (individuals s0.pop ++ ev)[k * s0.pop.id.length + i]? = some (s.pop.x[i], s.pop.f[i]) := by
    have := h.ind i hi
    rw [if_neg (by omega)] at this
    rw [← Nat.add_zero (k * s0.pop.id.length + i), ← this, individuals, List.getElem?_zip_eq_some]
    exact ⟨List.getElem?_eq_getElem _, List.getElem?_eq_getElem _⟩
  obtain ⟨wa, hwa, ea⟩ := h.wa
  obtain ⟨wb, hwb, eb⟩ := h.wb
  obtain ⟨wd, hwd, ed⟩ := h.wd
  have hci : c.xs[i] = s.pop.x[i] := by simp only [h.xs]
  unfold gwoAgent
  rw [wp_bind, wp_lift_get hcx, wp_bind, wp_onRng, hci]
  refine wp_gwoMove hg hP hdim hN (h.made _ (List.mem_of_getElem? hold)) (by rw [ea]; exact h.made _ hwa) (by rw [eb]; exact h.made _ hwb)
    (by rw [ed]; exact h.made _ hwd) ?_
  intro y z e hz hzm hzp
  rw [wp_bind, hz, wp_lift_ok, wp_bind]
  refine wp_eval_by hzm.1 (tracked_rng h.tr e) hzm ?_ (fun _ _ h => h)
  intro f s2 hf hpop _ ht2
  rw [wp_bind]
  refine wp_setXF_tracked hnx0 (by omega) ht2 (by rw [hpop]; simp only; rw [hid]; exact hi) hzm.1 hf ?_ (fun _ _ h => h)
  intro s3 ht3 _ hx3 hf3 _
  rw [hpop] at hx3 hf3
  simp only at hx3 hf3
  have hfi : s3.pop.f[i]'(by rw [hf3]; simpa using hif) = f := by simp [hf3]
  rw [wp_bind, wp_get', wp_bind, wp_lift_get (by rw [hf3]; simpa using hif), hfi, wp_bind, wp_lift_get (by omega), wp_bind,
    wp_lift_set hcx, wp_pure]
  generalize hc : gwoThird f[0] z (gwoSecond f[0] z (gwoFirst f[0] z { c with xs := c.xs.set i z })) = c'
  have hobj : objOf (z, f) = f[0] := by simp [objOf, List.getD_eq_getElem?_getD, List.getElem?_eq_getElem (show 0 < f.length by omega)]
  obtain ⟨g1, g2, g3, g4, g5⟩ := gwo_lead hc.symm (R := fun w => ∃ p ∈ individuals s0.pop ++ (ev ++ [(z, f)]), w = (objOf p, p.1))
    ⟨(z, f), by simp, by rw [hobj]⟩ ⟨wa, by rw [← List.append_assoc]; exact List.mem_append_left _ hwa, ea⟩
    ⟨wb, by rw [← List.append_assoc]; exact List.mem_append_left _ hwb, eb⟩
    ⟨wd, by rw [← List.append_assoc]; exact List.mem_append_left _ hwd, ed⟩
  refine ⟨g5, (z, f), ?_, ?_, ?_, ?_, ?_, ?_, g1, g2, g3, ?_⟩
  · rw [← asCalls_append]; exact ht3
  · simp [h.cnt]; omega
  · intro p hp
    rw [← List.append_assoc] at hp
    rcases List.mem_append.mp hp with hp | hp
    · exact h.made p hp
    · rw [List.mem_singleton.mp hp]; exact hzm
  · intro j hj
    have hl : (individuals s.pop).length = s0.pop.id.length := by
      unfold individuals; rw [List.length_zip, hxl, hfl, hid, Nat.min_self]
    rw [individuals_set hx3 hf3, List.getElem?_set, ← List.append_assoc]
    have hcnt := h.cnt
    by_cases e : i = j
    · subst e
      rw [if_pos rfl, if_pos (by omega), if_pos (by omega),
        show k * s0.pop.id.length + i + s0.pop.id.length = (individuals s0.pop ++ ev).length by simp [hil, hcnt]; omega,
        List.getElem?_concat_length]
    · rw [if_neg e, h.ind j hj]
      have : (if j < i then s0.pop.id.length else 0) = if j < i + 1 then s0.pop.id.length else 0 := by
        by_cases h' : j < i
        · rw [if_pos h', if_pos (by omega)]
        · rw [if_neg h', if_neg (by omega)]
      rw [this]
      symm
      apply List.getElem?_append_left
      rw [List.length_append, hil, hcnt]
      split <;> omega
  · rw [g4, hx3, h.xs]
  · rw [List.map_append]
    have := leaders_step hba hdb (c := { c with xs := c.xs.set i z }) h.lead f[0] z hc.symm
    simpa [hobj] using this
  · intro n hn
    rw [List.length_append, List.length_singleton] at hn
    rcases Nat.lt_succ_iff_lt_or_eq.mp hn with hn | rfl
    · exact gwoMoved_append hn (by rw [hil]; omega) (h.moved n hn) _
    · unfold GwoMoved
      rw [List.take_append_of_le_length le_rfl, List.take_length]
      have hlead := h.lead
      rw [ea, eb, ed] at hlead
      refine ⟨wa, hwa, wb, hwb, wd, hwd, hlead, ?_⟩
      intro old new h1 h2
      rw [List.getElem?_concat_length] at h2
      cases h2
      rw [← List.append_assoc, List.getElem?_append_left (by rw [List.length_append, hil]; omega), h.cnt, hold] at h1
      cases h1
      have hk : ev.length / s0.pop.id.length + 1 = k + 1 := by
        rw [h.cnt, Nat.mul_comm, Nat.mul_add_div (by omega), Nat.div_eq_of_lt hi, Nat.add_zero]
      rw [hk]
      rw [ea, eb, ed] at hzp
      exact hzp

/-- a generation with a line in the log -/
def GwoLogged (verb g : Nat) : Prop := verb = 1 ∨ 1 < verb ∧ g % verb = 1

instance (verb g : Nat) : Decidable (GwoLogged verb g) := by unfold GwoLogged; infer_instance

/-- the line of generation `g` -/
def GwoLine (NP : Nat) (a0 b0 d0 : Fl K) (ev : List (List (Fl K) × List (Fl K))) (g : Nat) (line : Nat × Fl K × Fl K × Fl K) : Prop :=
  line.1 = g ∧ g * NP ≤ ev.length ∧ Leaders3 a0 b0 d0 ((ev.take (g * NP)).map objOf) line.2

/-- What `gwo::evolve` has done. `ev` are the evaluated points, in order. -/
structure GwoDone (v : Env K σ) (P : AProb K) (A : Gwo) (Num : Prop) (s : St K σ) (log : GwoLog K) (s' : St K σ) : Prop where
  inv : Inv P.info s'.pop
  id : s'.pop.id = s.pop.id
  work : ∃ (o : List Nat) (a0 b0 d0 : Fl K) (ev : List (List (Fl K) × List (Fl K))),
    o.Perm (List.range s.pop.f.length) ∧ o.Pairwise (fun i j => obj0 s.pop.f j ≤ obj0 s.pop.f i) ∧
    (o.map (obj0 s.pop.f)).take 3 = [a0, b0, d0] ∧
    s'.evs = s.evs ++ asCalls ev ∧ ev.length = A.gens * s.pop.id.length ∧ (∀ p ∈ ev, Made Num P p.1) ∧
    (∀ p ∈ asCalls ev, ∃ h, p.2 = P.fit h p.1) ∧
    individuals s'.pop = (individuals s.pop ++ ev).drop (A.gens * s.pop.id.length) ∧
    (∀ n < ev.length, GwoMoved v P A s.pop.id.length a0 b0 d0 (individuals s.pop) ev n) ∧
    List.Forall₂ (GwoLine s.pop.id.length a0 b0 d0 ev) ((List.range' 1 A.gens).filter (GwoLogged A.verb)) log

theorem sort_gwo {srt : (Nat → Nat → Bool) → List Nat → List Nat} (hs : ValidSort srt) (F : List (List (Fl K))) :
    ∃ o, stdSort srt (gwoGreater F) (List.range F.length) = .ok o ∧ o.Perm (List.range F.length) ∧
      o.Pairwise (fun i j => obj0 F j ≤ obj0 F i) := by
  have hgt : ∀ a b, gwoGreater F a b = true ↔ OrderDual.toDual (obj0 F a) < OrderDual.toDual (obj0 F b) := fun a b => by
    rw [OrderDual.toDual_lt_toDual]; exact Fl.greaterThanF_iff _ _
  obtain ⟨o, h1, h2⟩ := stdSort_sat hs (lt := gwoGreater F) (l := List.range F.length)
    (swoOn_of_key (fun a => OrderDual.toDual (obj0 F a)) (fun a _ b _ => hgt a b))
  refine ⟨o, h1, h2.perm, h2.sorted.imp (fun {a b} h => ?_)⟩
  rw [Bool.eq_false_iff, ne_eq, hgt, OrderDual.toDual_lt_toDual] at h
  exact not_lt.mp h

theorem gwoLeader_ok {P : AProb K} {s : St K σ} (hs : Inv P.info s.pop) (hnf : P.info.nf = 1) {o : List Nat}
    (ho : o.Perm (List.range s.pop.f.length)) {r : Nat} (hr : r < o.length) :
    ∃ w ∈ individuals s.pop, gwoLeader s.pop.x s.pop.f o r = .ok (objOf w, w.1) ∧ objOf w = obj0 s.pop.f o[r] := by
  have hlt : o[r] < s.pop.f.length := by simpa using ho.mem_iff.mp (List.getElem_mem hr)
  have hx : o[r] < s.pop.x.length := by rw [hs.wf.xs, ← hs.wf.fs]; exact hlt
  have hd : 0 < (s.pop.f[o[r]]).length := by rw [hs.wf.dimF _ (List.getElem_mem hlt), hnf]; omega
  refine ⟨(s.pop.x[o[r]], s.pop.f[o[r]]), ?_, ?_, ?_⟩
  · apply List.mem_of_getElem? (i := o[r])
    rw [individuals, List.getElem?_zip_eq_some]
    exact ⟨List.getElem?_eq_getElem _, List.getElem?_eq_getElem _⟩
  · unfold gwoLeader
    rw [Outcome.get_of_lt hr]
    simp only [Outcome.bind_ok]
    rw [Outcome.get_of_lt hlt]
    simp only [Outcome.bind_ok]
    rw [Outcome.get_of_lt hd]
    simp only [Outcome.bind_ok]
    rw [Outcome.get_of_lt hx]
    simp [objOf, List.getD_eq_getElem?_getD, List.getElem?_eq_getElem hd]
  · simp [objOf, obj0, List.getD_eq_getElem?_getD, List.getElem?_eq_getElem hlt]

/-- finite bounds, a population inside the bounds and arithmetic without overflow -/
def GwoFinite (v : Env K σ) (P : AProb K) (A : Gwo) (s : St K σ) : Prop :=
  GwoNum v P A ∧ ∀ x ∈ s.pop.x, InBox P.lb P.ub 0 x

/-- C71 (what is done). `gwo::evolve` on an unconstrained, deterministic, single-objective problem with at least three individuals
and at least one generation: the IDs stay; each agent moves once in a generation, `gens · NP` points are evaluated; afterwards the
population consists of the last `NP` points evaluated, whatever their objectives; the leaders at the start are the three individuals
with the largest objectives (NaN is the largest); each move is a pull towards the leaders at that time (`GwoMoved`); the log has
a line for each generation that the verbosity asks for, with the scores of the leaders after that generation (`Leaders3`). Points are
inside the bounds if the bounds are finite, the population was inside, and nothing overflows. The run ends, and can only fail by the
user's fitness function or lack of memory. -/
theorem C71_evolve (v : Env K σ) (rep : K → Prop) (hg : v.g.Lawful rep) (hsrt : ValidSort v.srt) (P : AProb K)
    (hP : SaneBounds P.lb P.ub P.nix) (hdim : P.info.nx = P.lb.length) (hnobj : P.info.nobj = 1) (hnc : P.info.nc = 0)
    (hst : P.info.stochastic = false) (A : Gwo) (hgens0 : 0 < A.gens) (hgens : A.gens + 1 < 2 ^ 32) (s : St K σ) (hs : Inv P.info s.pop)
    (h3 : 3 ≤ s.pop.id.length) (log0 : GwoLog K) (fuel : Nat) (hfuel : A.gens < fuel) :
    wp (gwoEvolve v P A log0 fuel) (fun log s' => GwoDone v P A (GwoFinite v P A s) s log s')
      (FailedBy (Made (GwoFinite v P A s) P) P s) s := by
  generalize hNum : GwoFinite v P A s = Num
  have hN : Num → GwoNum v P A := fun n => (hNum ▸ n : GwoFinite v P A s).1
  have hnf : P.info.nf = 1 := by simp only [Info.nf, Info.nc] at *; omega
  have hil : (individuals s.pop).length = s.pop.id.length := by
    unfold individuals; rw [List.length_zip, hs.wf.xs, hs.wf.fs, Nat.min_self]
  have hB : ∀ p ∈ individuals s.pop, Made Num P p.1 := fun p hp =>
    ⟨hs.wf.dimX _ (List.of_mem_zip hp).1, fun n => (hNum ▸ n : GwoFinite v P A s).2 _ (List.of_mem_zip hp).1⟩
  obtain ⟨o, ho, hop, hos⟩ := sort_gwo hsrt s.pop.f
  have hol : o.length = s.pop.id.length := by rw [hop.length_eq, List.length_range, hs.wf.fs]
  obtain ⟨wa, hwa, ea, fa⟩ := gwoLeader_ok hs hnf hop (r := 0) (by omega)
  obtain ⟨wb, hwb, eb, fb⟩ := gwoLeader_ok hs hnf hop (r := 1) (by omega)
  obtain ⟨wd, hwd, ed, fd⟩ := gwoLeader_ok hs hnf hop (r := 2) (by omega)
  have hba : objOf wb ≤ objOf wa := by
    rw [fa, fb]; exact List.pairwise_iff_getElem.mp hos 0 1 (by omega) (by omega) (by omega)
  have hdb : objOf wd ≤ objOf wb := by
    rw [fd, fb]; exact List.pairwise_iff_getElem.mp hos 1 2 (by omega) (by omega) (by omega)
  unfold gwoEvolve
  rw [wp_bind, wp_get', if_neg (by omega), if_neg (by omega), if_neg (by simp [hst]), if_neg (by omega), if_neg (by omega), wp_bind, ho,
    wp_lift_ok, wp_bind, ea, wp_lift_ok, wp_bind, eb, wp_lift_ok, wp_bind, ed, wp_lift_ok, wp_bind]
  have key := wpn_genLoop (N := False) (body := gwoGen v P A s.pop.id.length) hgens (E := FailedBy (Made Num P) P s)
    (fun k c s' => ∃ ev, GwoInv v P A Num s (objOf wa) (objOf wb) (objOf wd) k 0 ev c s' ∧
      List.Forall₂ (GwoLine s.pop.id.length (objOf wa) (objOf wb) (objOf wd) ev) ((List.range' 1 k).filter (GwoLogged A.verb)) c.log) ?_
    fuel 0 ⟨s.pop.x, (objOf wa, wa.1), (objOf wb, wb.1), (objOf wd, wd.1), []⟩ s (by omega) (by omega) ?_
  · refine (wp_of_wpn key).mono ?_ (fun _ _ h => h)
    rintro c s' ⟨ev, hI, hlog⟩
    rw [wp_pure]
    have hcnt : ev.length = A.gens * s.pop.id.length := by simpa using hI.cnt
    refine ⟨hI.tr.inv, hI.tr.id, o, objOf wa, objOf wb, objOf wd, ev, hop, hos, ?_, hI.tr.evs, hcnt,
      fun p hp => hI.made p (List.mem_append_right _ hp), hI.tr.user, ?_, hI.moved, hlog⟩
    · match o, hol, fa, fb, fd with
      | a :: b :: c :: r, _, fa, fb, fd => simp at fa fb fd; simp [fa, fb, fd]
      | [], hol, _, _, _ => simp at hol; omega
      | [a], hol, _, _, _ => simp at hol; omega
      | [a, b], hol, _, _, _ => simp at hol; omega
    · apply List.ext_getElem?
      intro j
      by_cases hj : j < s.pop.id.length
      · rw [hI.ind j hj, List.getElem?_drop]; simp
      · rw [List.getElem?_eq_none, List.getElem?_eq_none]
        · rw [List.length_drop, List.length_append, hil, hcnt]; omega
        · unfold individuals
          rw [List.length_zip, hI.tr.inv.wf.xs, hI.tr.inv.wf.fs, hI.tr.id, Nat.min_self]; omega
  · rintro k c s1 hk ⟨ev, hI, hlog⟩
    refine wpn_of_wp ?_
    unfold gwoGen
    rw [wp_bind]
    refine (wp_range (fun i c' s' => c'.log = c.log ∧ ∃ cur, GwoInv v P A Num s (objOf wa) (objOf wb) (objOf wd) k i (ev ++ cur) c' s')
      s.pop.id.length c s1 ⟨rfl, [], by simpa using hI⟩ ?_).mono ?_ (fun _ _ h => h)
    · rintro i c' s2 hi ⟨hl, cur, h2⟩
      refine (wp_gwoAgent hg hP hdim hnobj hnc hN hs hba hdb hi h2).mono ?_ (fun _ _ h => h)
      rintro c2 s3 ⟨h4, q, h5⟩
      exact ⟨h4.trans hl, cur ++ [q], by rw [← List.append_assoc]; exact h5⟩
    · rintro c' s2 ⟨hl, cur, h2⟩
      rw [wp_pure]
      have hc1 := hI.cnt
      have hc2 := h2.cnt
      have hc3 : (k + 1) * s.pop.id.length = k * s.pop.id.length + s.pop.id.length := by ring
      have hcl : (ev ++ cur).length = (k + 1) * s.pop.id.length := by omega
      have hI' : GwoInv v P A Num s (objOf wa) (objOf wb) (objOf wd) (k + 1) 0 (ev ++ cur) c' s2 := by
        refine ⟨h2.tr, hcl, h2.made, fun j hj => ?_, h2.xs, h2.lead, h2.wa, h2.wb, h2.wd, h2.moved⟩
        rw [h2.ind j hj, if_pos hj, if_neg (by omega)]
        congr 1
        omega
      have hold : List.Forall₂ (GwoLine s.pop.id.length (objOf wa) (objOf wb) (objOf wd) (ev ++ cur))
          ((List.range' 1 k).filter (GwoLogged A.verb)) c'.log := by
        rw [hl]
        refine hlog.imp ?_
        rintro g line ⟨e1, e2, e3⟩
        exact ⟨e1, by rw [List.length_append]; omega, by rw [List.take_append_of_le_length e2]; exact e3⟩
      have hiff : gwoLogs A (k + 1) = decide (GwoLogged A.verb (k + 1)) := by
        rw [Bool.eq_iff_iff, decide_eq_true_eq]
        unfold gwoLogs GwoLogged
        simp only [Bool.and_eq_true, Bool.or_eq_true, decide_eq_true_eq, beq_iff_eq]
        constructor
        · rintro ⟨h, h' | h'⟩
          · by_cases e : A.verb = 1
            · exact Or.inl e
            · exact Or.inr ⟨by omega, h'⟩
          · exact Or.inl h'
        · rintro (h | ⟨h, h'⟩)
          · exact ⟨by omega, Or.inr h⟩
          · exact ⟨by omega, Or.inl h'⟩
      refine ⟨rfl, ev ++ cur, ?_, ?_⟩
      · split
        · exact ⟨hI'.tr, hI'.cnt, hI'.made, hI'.ind, hI'.xs, hI'.lead, hI'.wa, hI'.wb, hI'.wd, hI'.moved⟩
        · exact hI'
      · rw [List.range'_concat, List.filter_append, hiff]
        by_cases hg1 : GwoLogged A.verb (k + 1)
        · have e1 : decide (GwoLogged A.verb (1 + 1 * k)) = true := by rw [decide_eq_true_eq, one_mul, Nat.add_comm]; exact hg1
          rw [if_pos (decide_eq_true hg1), List.filter_singleton, e1, cond_true]
          refine List.rel_append hold (List.Forall₂.cons ⟨by simp; omega, ?_, ?_⟩ List.Forall₂.nil)
          · rw [hcl, one_mul, Nat.add_comm]
          · rw [one_mul, Nat.add_comm 1 k, ← hcl, List.take_length]; exact hI'.lead
        · have e1 : decide (GwoLogged A.verb (1 + 1 * k)) = false := by rw [decide_eq_false_iff_not, one_mul, Nat.add_comm]; exact hg1
          rw [if_neg (by simpa using hg1), List.filter_singleton, e1, cond_false, List.append_nil]
          exact hold
  · refine ⟨[], ⟨tracked_refl hs, by simp, by simpa using hB, fun j hj => by simp, rfl, leaders_nil _ _ _, ⟨wa, by simpa using hwa, rfl⟩,
      ⟨wb, by simpa using hwb, rfl⟩, ⟨wd, by simpa using hwd, rfl⟩, by simp⟩, by simp⟩

end

/-- C71 (alpha). If no fitness of the input is NaN (then the largest, `a0`, is not), the alpha score is the smallest of `a0` and the
objectives evaluated so far: it is not worse than any point met during evolution, and not worse than the *worst* of the input. -/
theorem C71_alpha_partial {a0 b0 d0 : Fl K} (ha : a0 ≠ .nan) {es : List (Fl K)} {t : Fl K × Fl K × Fl K} (h : Leaders3 a0 b0 d0 es t) :
    (t.1 = a0 ∨ t.1 ∈ es) ∧ t.1 ≤ a0 ∧ ∀ e ∈ es, t.1 ≤ e := by
  obtain ⟨D, hD, hm, ht⟩ := h
  have hlt : ∀ e ∈ es, e < a0 → e ∈ D := fun e he h => (hm e).mpr ⟨he, (Fl.lt_iff (fun h' => by
    subst h'; exact absurd h (not_lt.mpr (Fl.le_nan _))) ha).mpr h⟩
  match D, hD, ht with
  | [], _, ht =>
    have e : t.1 = a0 := by simp at ht; exact ht.1
    rw [e]
    exact ⟨Or.inl rfl, le_rfl, fun x hx => not_lt.mp fun h => by simpa using hlt x hx h⟩
  | d :: r, hD, ht =>
    have e : t.1 = d := by
      simp only [List.cons_append, List.take_succ_cons, List.cons.injEq] at ht
      exact ht.1
    rw [e]
    obtain ⟨h1, h2⟩ := (hm d).mp (by simp)
    have h3 : d ≠ .nan := by rintro rfl; simp [lt_nan_left] at h2
    have h4 := ((Fl.lt_iff h3 ha).mp h2).le
    refine ⟨Or.inr h1, h4, fun x hx => ?_⟩
    by_cases h5 : x < a0
    · rcases List.mem_cons.mp (hlt x hx h5) with rfl | h6
      · exact le_rfl
      · exact (List.rel_of_pairwise_cons hD h6).le
    · exact h4.trans (not_lt.mp h5)

/-- C71 (order). As soon as two different objectives below the worst one of the input were evaluated, the scores are in strictly
ascending order. -/
theorem C71_order_partial {a0 b0 d0 : Fl K} {es : List (Fl K)} {t : Fl K × Fl K × Fl K} (h : Leaders3 a0 b0 d0 es t) {e1 e2 : Fl K}
    (h1 : e1 ∈ es) (h2 : e2 ∈ es) (hne : e1 ≠ e2) (l1 : Fl.lt e1 a0 = true) (l2 : Fl.lt e2 a0 = true) : t.1 < t.2.1 ∧ t.2.1 < t.2.2 := by
  obtain ⟨D, hD, hm, ht⟩ := h
  have m1 := (hm e1).mpr ⟨h1, l1⟩
  have m2 := (hm e2).mpr ⟨h2, l2⟩
  have ha : a0 ≠ .nan := by rintro rfl; simp [lt_nan_right] at l1
  match D, hD, ht with
  | [], _, _ => simp at m1
  | [d], _, _ => simp at m1 m2; exact absurd (m1.trans m2.symm) hne
  | [d, d'], hD, ht =>
    simp only [List.cons_append, List.nil_append, List.take, List.cons.injEq, and_true] at ht
    obtain ⟨q1, q2, q3⟩ := ht
    rw [q1, q2, q3]
    have h3 := ((hm d').mp (by simp)).2
    exact ⟨by simpa using hD, (Fl.lt_iff (by rintro rfl; simp [lt_nan_left] at h3) ha).mp h3⟩
  | d :: d' :: d'' :: r, hD, ht =>
    simp only [List.cons_append, List.take, List.cons.injEq, and_true] at ht
    obtain ⟨q1, q2, q3⟩ := ht
    rw [q1, q2, q3]
    simp at hD
    exact ⟨hD.1.1, hD.2.1.1⟩

/-- C71 (log). Every line of the log: its alpha score is not above that of an earlier line, and it is not above any objective
evaluated up to then; from the line on where two different objectives below the worst of the input had been evaluated, the scores
are in ascending order. -/
theorem C71_log_partial {NP : Nat} {a0 b0 d0 : Fl K} (ha : a0 ≠ .nan) {ev : List (List (Fl K) × List (Fl K))} {g g' : Nat}
    {line line' : Nat × Fl K × Fl K × Fl K} (h : GwoLine NP a0 b0 d0 ev g line) (h' : GwoLine NP a0 b0 d0 ev g' line') (hg : g ≤ g') :
    line'.2.1 ≤ line.2.1 ∧ (∀ p ∈ ev.take (g * NP), line.2.1 ≤ objOf p) ∧
    ∀ p ∈ ev.take (g * NP), ∀ q ∈ ev.take (g * NP), objOf p ≠ objOf q → objOf p < a0 → objOf q < a0 →
      line'.2.1 < line'.2.2.1 ∧ line'.2.2.1 < line'.2.2.2 := by
  have sub : ∀ p ∈ ev.take (g * NP), p ∈ ev.take (g' * NP) := fun p hp =>
    (List.take_subset_take_left _ (Nat.mul_le_mul_right _ hg)) hp
  have a1 := C71_alpha_partial ha h.2.2
  have a2 := C71_alpha_partial ha h'.2.2
  refine ⟨?_, fun p hp => a1.2.2 _ (List.mem_map_of_mem hp), ?_⟩
  · rcases a1.1 with h1 | h1
    · rw [h1]; exact a2.2.1
    · obtain ⟨p, hp, hq⟩ := List.mem_map.mp h1
      rw [← hq]
      exact a2.2.2 _ (List.mem_map_of_mem (sub p hp))
  · intro p hp q hq hne h1 h2
    have nn : ∀ x : Fl K, x < a0 → x ≠ .nan := by
      rintro x hx rfl; exact absurd hx (not_lt.mpr (Fl.le_nan _))
    exact C71_order_partial h'.2.2 (List.mem_map_of_mem (sub p hp)) (List.mem_map_of_mem (sub q hq)) hne
      ((Fl.lt_iff (nn _ h1) ha).mpr h1) ((Fl.lt_iff (nn _ h2) ha).mpr h2)

/-- C71 (NaN). If a fitness of the input is NaN (then `a0` is NaN), no point met during evolution ever becomes a leader: the alpha
score stays NaN. -/
theorem C71_nan_false {b0 d0 : Fl K} {es : List (Fl K)} {t : Fl K × Fl K × Fl K} (h : Leaders3 .nan b0 d0 es t) : t = (.nan, b0, d0) := by
  obtain ⟨D, _, hm, ht⟩ := h
  have : D = [] := List.eq_nil_iff_forall_not_mem.mpr fun v hv => by
    have := ((hm v).mp hv).2; simp [lt_nan_right] at this
  subst this
  simp only [List.nil_append, List.take, List.cons.injEq, and_true] at ht
  obtain ⟨x, y, z⟩ := t
  simp only at ht
  obtain ⟨rfl, rfl, rfl⟩ := ht
  rfl

/-- C71 (errors). -/
theorem C71_throws (v : Env K σ) (P : AProb K) (A : Gwo) (log0 : GwoLog K) (fuel : Nat) (s : St K σ)
    (h : P.info.nc ≠ 0 ∨ P.info.nf ≠ 1 ∨ P.info.stochastic = true ∨ 0 < A.gens ∧ s.pop.id.length < 3) :
    gwoEvolve v P A log0 fuel s = (.throws .invalidArgument, s) := by
  unfold gwoEvolve
  show Run.bind _ _ s = _
  simp only [Run.bind, Run.get]
  by_cases h1 : P.info.nc ≠ 0
  · rw [if_pos h1]; rfl
  rw [if_neg h1]
  by_cases h2 : P.info.nf ≠ 1
  · rw [if_pos h2]; rfl
  rw [if_neg h2]
  by_cases h3 : P.info.stochastic = true
  · rw [if_pos h3]; rfl
  rw [if_neg h3]
  obtain ⟨h4, h5⟩ : 0 < A.gens ∧ s.pop.id.length < 3 := by tauto
  rw [if_neg (by omega), if_pos h5]
  rfl

/-- C71 (no generations). The population and the log stay as they are, even when there are fewer than three individuals. -/
theorem C71_nothing (v : Env K σ) (P : AProb K) (A : Gwo) (log0 : GwoLog K) (fuel : Nat) (s : St K σ)
    (h1 : P.info.nc = 0) (h2 : P.info.nf = 1) (h3 : P.info.stochastic = false) (h4 : A.gens = 0) :
    gwoEvolve v P A log0 fuel s = (.ok log0, s) := by
  unfold gwoEvolve
  show Run.bind _ _ s = _
  simp only [Run.bind, Run.get]
  rw [if_neg (by omega), if_neg (by omega), if_neg (by simp [h3]), if_pos h4]
  rfl

section
variable [IsStrictOrderedRing K]

/-- C71 (coefficient). In exact arithmetic the coefficient `a` falls linearly from 2 to 0, which it reaches in the last generation. -/
theorem C71_rate (v : Env K σ) (hop : v.op = Fl.exact K) (A : Gwo) (h0 : 0 < A.gens) (g : Nat) :
    gwoA v A g = .fin (2 * (1 - (g : K) / A.gens)) := by
  have hg : (A.gens : K) ≠ 0 := by exact_mod_cast h0.ne'
  unfold gwoA
  rw [hop]
  simp [Fl.exact, Fl.add, Fl.sub, Fl.mul, Fl.div, Fl.neg, hg]
  field_simp
  ring

/-- C71 (pull). In exact arithmetic a pull ends within `a · |2 r₂ p - x|` of the leader's component `p`. -/
theorem C71_pull (a p x r1 r2 : K) (ha : 0 ≤ a) (h1 : 0 ≤ r1 ∧ r1 ≤ 1) :
    ∃ y : K, gwoPull (Fl.exact K) (.fin a) (.fin p) (.fin x) (.fin r1) (.fin r2) = .fin y ∧ |y - p| ≤ a * |2 * r2 * p - x| := by
  refine ⟨p - (2 * a * r1 - a) * |2 * r2 * p - x|, ?_, ?_⟩
  · simp [gwoPull, Fl.exact, Fl.add, Fl.sub, Fl.mul, Fl.neg, Fl.abs, one_add_one_eq_two]
    split
    · rename_i h; rw [abs_of_neg (sub_neg.mpr h)]; ring
    · rename_i h; rw [abs_of_nonneg (sub_nonneg.mpr (not_lt.mp h))]; ring
  · rw [sub_sub_cancel_left, abs_neg, abs_mul, abs_abs]
    refine mul_le_mul_of_nonneg_right ?_ (abs_nonneg _)
    rw [abs_le]
    constructor
    · nlinarith [mul_nonneg ha h1.1]
    · nlinarith [mul_nonneg ha (sub_nonneg.mpr h1.2)]

/-- C71 (last generation). In exact arithmetic the moves of the last generation have no randomness: every component becomes the mean
of the three leaders' components, cut at the bounds. -/
theorem C71_last (v : Env K σ) (hop : v.op = Fl.exact K) (A : Gwo) (h0 : 0 < A.gens) (pa pb pd x : K) (l u y : Fl K)
    (h : PulledTo v.op (gwoA v A A.gens) (.fin pa) (.fin pb) (.fin pd) (.fin x) l u y) : y = stick1 l u (.fin ((pa + pb + pd) / 3)) := by
  have hg : (A.gens : K) ≠ 0 := by exact_mod_cast h0.ne'
  obtain ⟨r, hr, rfl⟩ := h
  have key : ∀ p r1 r2 : K, 0 ≤ r1 ∧ r1 ≤ 1 → gwoPull (Fl.exact K) (.fin 0) (.fin p) (.fin x) (.fin r1) (.fin r2) = .fin p := by
    intro p r1 r2 h1
    obtain ⟨y, h2, h3⟩ := C71_pull (0 : K) p x r1 r2 le_rfl h1
    rw [h2]
    rw [zero_mul] at h3
    have := abs_eq_zero.mp (le_antisymm h3 (abs_nonneg _))
    rw [sub_eq_zero.mp this]
  rw [C71_rate v hop A h0, div_self hg, sub_self, mul_zero, hop, key _ _ _ (hr 0), key _ _ _ (hr 2), key _ _ _ (hr 4)]
  congr 1
  have h3 : ((1 : K) + 1 + 1) = 3 := by norm_num
  have h3' : (3 : K) ≠ 0 := by norm_num
  simp [Fl.exact, Fl.add, Fl.div, h3, h3']

theorem gwoNum_exact (v : Env K σ) (hop : v.op = Fl.exact K) (P : AProb K) (A : Gwo) (h0 : 0 < A.gens) (hP : FiniteBox P) :
    GwoNum v P A := by
  have hg : (A.gens : K) ≠ 0 := by exact_mod_cast h0.ne'
  have h3 : ((1 : K) + 1 + 1) ≠ 0 := by norm_num
  refine ⟨hP.finL, hP.finU, by rw [hop]; exact noOverflow_exact, ⟨1, by rw [hop]; rfl⟩, fun a => ?_, ?_⟩
  · rw [hop]
    exact ⟨a / (1 + 1 + 1), by simp [Fl.exact, Fl.add, Fl.div, h3]⟩
  · rw [hop]
    exact ⟨(1 + 1) / A.gens, by simp [Fl.exact, Fl.add, Fl.div, hg]⟩

end

/-! ### Non-triviality -/

example : wp (gwoEvolve seaEnv algDemo ⟨3, 2⟩ [] 4) (fun log s' => GwoDone seaEnv algDemo ⟨3, 2⟩ (GwoFinite seaEnv algDemo ⟨3, 2⟩ seaSt) seaSt log s')
    (FailedBy (Made (GwoFinite seaEnv algDemo ⟨3, 2⟩ seaSt) algDemo) algDemo seaSt) seaSt :=
  C71_evolve seaEnv _ quarterGen_lawful insSort_valid algDemo algDemo_finiteBox.bounds rfl rfl rfl rfl ⟨3, 2⟩ (by decide) (by decide)
    seaSt deDemo_inv (by decide) [] 4 (by decide)

example : GwoFinite seaEnv algDemo ⟨3, 2⟩ seaSt := ⟨gwoNum_exact _ rfl _ _ (by decide) algDemo_finiteBox, deDemo_box⟩

/-- The log of this run: the alpha scores are larger than the smallest fitness of the input, 1. -/
example : (gwoEvolve seaEnv algDemo ⟨3, 2⟩ [] 4 seaSt).1 = .ok
    [(1, .fin (196 / 9), .fin (16384 / 729), .fin 25), (3, .fin (196 / 9), .fin (949194481 / 43046721), .fin (105925264 / 4782969))] := by
  decide +kernel

example : Leaders3 (.fin 9 : Fl ℚ) (.fin 7) (.fin 7) [.nan, .fin 8, .fin 12, .fin 3, .fin 8] (.fin 3, .fin 8, .fin 9) :=
  ⟨[.fin 3, .fin 8], by decide +kernel, fun v => by
    simp only [List.mem_cons, List.not_mem_nil, or_false]
    constructor
    · rintro (rfl | rfl) <;> exact ⟨by simp, by decide +kernel⟩
    · rintro ⟨rfl | rfl | rfl | rfl | rfl, h⟩
      · exact absurd h (by decide +kernel)
      · simp
      · exact absurd h (by decide +kernel)
      · simp
      · simp, rfl⟩

example : gwoEvolve seaEnv algDemo ⟨3, 2⟩ [] 4 { seaSt with pop := ⟨[5], [[.fin 3]], [[.fin 9]], [.fin 3], [.fin 9], [], fun n => n, []⟩ } =
    (.throws .invalidArgument, { seaSt with pop := ⟨[5], [[.fin 3]], [[.fin 9]], [.fin 3], [.fin 9], [], fun n => n, []⟩ }) :=
  C71_throws _ _ _ _ _ _ (Or.inr (Or.inr (Or.inr ⟨by decide, by decide⟩)))

example : ∃ y : ℚ, gwoPull (Fl.exact ℚ) (.fin 2) (.fin 3) (.fin 1) (.fin (1 / 4)) (.fin 1) = .fin y ∧ |y - 3| ≤ 2 * |2 * 1 * 3 - 1| :=
  C71_pull 2 3 1 (1 / 4) 1 (by norm_num) ⟨by norm_num, by norm_num⟩

example : gwoA seaEnv ⟨4, 0⟩ 1 = .fin (2 * (1 - ((1 : Nat) : ℚ) / ((4 : Nat) : ℚ))) := C71_rate seaEnv rfl ⟨4, 0⟩ (by decide) 1

/-- a hill: 4 at 2, and smaller elsewhere -/
def gwoHill : AProb ℚ := ⟨P1, [.fin 0], [.fin 4], 0, fun _ x => .ok (x.map (fun a => Fl.sub (.fin 4) (Fl.mul (Fl.sub a (.fin 2)) (Fl.sub a (.fin 2)))))⟩

def gwoHillSt : St ℚ Unit :=
  ⟨⟨[5, 6, 7, 8], [[.fin 1], [.fin 2], [.fin 3], [.fin 0]], [[.fin 3], [.fin 4], [.fin 3], [.fin 0]], [.fin 0], [.fin 0], [], fun n => n, []⟩, (), []⟩

/-- C71, the claim is false. The function is 4 on top of the hill and 0 at the bounds, and one individual of the input is at a bound.
The leaders are the three worst: the scores in the log are in descending order, alpha is worse than an input fitness, and all
individuals end up on top of the hill. -/
theorem C71_false : (gwoEvolve seaEnv gwoHill ⟨1, 1⟩ [] 2 gwoHillSt).1 = .ok [(1, .fin 4, .fin 3, .fin 3)] ∧
    (gwoEvolve seaEnv gwoHill ⟨1, 1⟩ [] 2 gwoHillSt).2.pop.f = [[.fin 4], [.fin 4], [.fin 4], [.fin 4]] ∧
    gwoHillSt.pop.f = [[.fin 3], [.fin 4], [.fin 3], [.fin 0]] := by
  refine ⟨by decide +kernel, by decide +kernel, rfl⟩

/-- The population of the example is one that the class can be in. -/
example : Inv gwoHill.info gwoHillSt.pop where
  wf := ⟨rfl, rfl, by decide +kernel, by decide +kernel⟩
  ch := Or.inr ⟨rfl, rfl⟩
  tol := rfl

/-- and the stored fitnesses are those of the function -/
example : gwoHillSt.pop.x.map (gwoHill.fit []) = gwoHillSt.pop.f.map .ok := by decide +kernel

end Verif.Props
