import Verif.Props.Cstrs

/-!
# Proofs about the run of cstrs_self_adaptive
-/

set_option autoImplicit false

namespace Verif.Props

open Verif Run Prob Pop Alg

variable {K σ : Type} [Field K] [LinearOrder K]

section
variable {op : Fl.Ops K} {nec nc : Nat} {tol : List (Fl K)}

/-! ### Every index is in range -/

theorem caViol_some (ht : tol.length = nc) {fit : List (Fl K)} (hf : fit.length = nc + 1) {j : Nat} (hj : j < nc) :
    ∃ y, caViol op nec tol fit j = .ok y := by
  unfold caViol
  rw [Outcome.get_of_lt (by omega), Outcome.bind_ok, Outcome.get_of_lt (by omega), Outcome.bind_ok]
  exact ⟨_, rfl⟩

theorem caCMax_some (ht : tol.length = nc) {fs : List (List (Fl K))} (hf : ∀ f ∈ fs, f.length = nc + 1) :
    ∃ c, caCMax op nec nc tol fs = .ok c ∧ c.length = nc := by
  have row : ∀ (f m : List (Fl K)), f.length = nc + 1 → m.length = nc → ∃ m', caCMaxRow op nec nc tol m f = .ok m' ∧ m'.length = nc := by
    intro f m hf hm
    refine Outcome.range_sat (f := caCMaxCell op nec tol f) (fun _ m => m.length = nc) nc m hm ?_
    intro i m hi hm
    obtain ⟨y, hy⟩ := caViol_some (op := op) (nec := nec) ht hf hi
    unfold caCMaxCell
    rw [hy, Outcome.bind_ok, Outcome.get_of_lt (by omega), Outcome.bind_ok, Outcome.set_of_lt (by omega)]
    exact ⟨_, rfl, by simpa using hm⟩
  have := Outcome.foldlM_sat (f := caCMaxRow op nec nc tol) (fun _ m => m.length = nc) fs [] (List.replicate nc (.fin 0)) (by simp) ?_
  · exact this
  · intro p a q m hl hm
    exact row a m (hf a (by rw [hl]; simp)) hm

theorem caInfeas_some (ht : tol.length = nc) {cMax : List (Fl K)} (hc : cMax.length = nc) {fit : List (Fl K)}
    (hf : fit.length = nc + 1) : ∃ y, caInfeas op nec nc tol cMax fit = .ok y := by
  have := Outcome.range_sat (f := caInfeasCell op nec tol cMax fit) (fun _ _ => True) nc (.fin 0) trivial ?_
  · obtain ⟨y, hy, _⟩ := this
    unfold caInfeas
    rw [hy]
    exact ⟨_, rfl⟩
  · intro i r hi _
    unfold caInfeasCell
    rw [Outcome.get_of_lt (by omega), Outcome.bind_ok]
    split
    · obtain ⟨y, hy⟩ := caViol_some (op := op) (nec := nec) ht hf hi
      rw [hy]
      exact ⟨_, rfl, trivial⟩
    · exact ⟨_, rfl, trivial⟩

theorem caPick_some {better : Nat → Nat → Outcome Bool} : ∀ (l : List Nat) (b : Nat),
    (∀ c ∈ l, ∀ a ∈ b :: l, ∃ y, better c a = .ok y) → ∃ m, caPick better b l = .ok m ∧ m ∈ b :: l := by
  intro l
  induction l with
  | nil => intro b _; exact ⟨b, rfl, by simp⟩
  | cons c l ih =>
    intro b h
    obtain ⟨y, hy⟩ := h c (by simp) b (by simp)
    have e : caPick better b (c :: l) = caPick better (if y then c else b) l := by
      unfold caPick
      rw [List.foldlM_cons, caPickStep, hy]
      rfl
    rw [e]
    obtain ⟨m, h1, h2⟩ := ih (if y then c else b) (fun c' hc' a ha => h c' (by simp [hc']) a (by
      rcases List.mem_cons.mp ha with rfl | ha
      · split <;> simp
      · simp [ha]))
    refine ⟨m, h1, ?_⟩
    rcases List.mem_cons.mp h2 with rfl | h2
    · split <;> simp
    · simp [h2]

section
variable {fs : List (List (Fl K))} (hf : ∀ f ∈ fs, f.length = nc + 1) {inf : List (Fl K)} (hi : inf.length = fs.length)
include hf

theorem caObj_some {i : Nat} (h : i < fs.length) : ∃ y, caObj fs i = .ok y := by
  unfold caObj
  have := hf _ (List.getElem_mem h)
  rw [Outcome.get_of_lt h, Outcome.bind_ok, Outcome.get_of_lt (by omega)]
  exact ⟨_, rfl⟩

theorem caLower_some {a b : Nat} (ha : a < fs.length) (hb : b < fs.length) : ∃ y, caLower fs a b = .ok y := by
  obtain ⟨x, hx⟩ := caObj_some hf ha
  obtain ⟨y, hy⟩ := caObj_some hf hb
  unfold caLower
  rw [hx, Outcome.bind_ok, hy]
  exact ⟨_, rfl⟩

theorem caHigher_some {a b : Nat} (ha : a < fs.length) (hb : b < fs.length) : ∃ y, caHigher fs a b = .ok y := by
  obtain ⟨x, hx⟩ := caObj_some hf ha
  obtain ⟨y, hy⟩ := caObj_some hf hb
  unfold caHigher
  rw [hx, Outcome.bind_ok, hy]
  exact ⟨_, rfl⟩

include hi

theorem caWorse_some {a b : Nat} (ha : a < fs.length) (hb : b < fs.length) : ∃ y, caWorse fs inf a b = .ok y := by
  unfold caWorse
  rw [Outcome.get_of_lt (by omega), Outcome.bind_ok, Outcome.get_of_lt (by omega), Outcome.bind_ok]
  split
  · split
    · exact caHigher_some hf ha hb
    · exact ⟨_, rfl⟩
  · exact ⟨_, rfl⟩

theorem caNearer_some {a b : Nat} (ha : a < fs.length) (hb : b < fs.length) : ∃ y, caNearer fs inf a b = .ok y := by
  unfold caNearer
  rw [Outcome.get_of_lt (by omega), Outcome.bind_ok, Outcome.get_of_lt (by omega), Outcome.bind_ok]
  split
  · split
    · exact caLower_some hf ha hb
    · exact ⟨_, rfl⟩
  · exact ⟨_, rfl⟩

theorem caBelow_some {fd : Fl K} {a b : Nat} (ha : a < fs.length) (hb : b < fs.length) : ∃ y, caBelow fs inf fd a b = .ok y := by
  obtain ⟨x, hx⟩ := caObj_some hf ha
  unfold caBelow
  rw [hx, Outcome.bind_ok]
  split
  · rw [Outcome.get_of_lt (by omega), Outcome.bind_ok, Outcome.get_of_lt (by omega), Outcome.bind_ok]
    split
    · split
      · exact caLower_some hf ha hb
      · exact ⟨_, rfl⟩
    · exact ⟨_, rfl⟩
  · exact ⟨_, rfl⟩

omit hi in
theorem caFirst_some {fd : Fl K} : ∀ l : List Nat, (∀ i ∈ l, i < fs.length) → ∃ o, caFirst fs fd l = .ok o ∧ ∀ i, o = some i → i ∈ l := by
  intro l
  induction l with
  | nil => intro _; exact ⟨none, rfl, by simp⟩
  | cons i l ih =>
    intro h
    obtain ⟨x, hx⟩ := caObj_some hf (h i (by simp))
    unfold caFirst
    rw [hx, Outcome.bind_ok]
    split
    · exact ⟨_, rfl, by simp⟩
    · obtain ⟨o, h1, h2⟩ := ih (fun j hj => h j (by simp [hj]))
      exact ⟨o, h1, fun i hi => by simp [h2 i hi]⟩

theorem caHatUp_some {fd : Fl K} {l : List Nat} (hl : ∀ i ∈ l, i < fs.length) (hne : l ≠ []) :
    ∃ r, caHatUp fs inf fd l = .ok r ∧ r.1 < fs.length := by
  obtain ⟨o, h1, h2⟩ := caFirst_some (fd := fd) hf l hl
  unfold caHatUp
  rw [h1, Outcome.bind_ok]
  cases o with
  | some i =>
    have hi' := hl i (h2 i rfl)
    obtain ⟨m, h3, h4⟩ := caPick_some (better := caBelow fs inf fd) l i (fun c hc a ha => caBelow_some hf hi (hl c hc) (by
      rcases List.mem_cons.mp ha with rfl | ha
      · exact hi'
      · exact hl a ha))
    simp only [h3, Outcome.bind_ok]
    refine ⟨_, rfl, ?_⟩
    rcases List.mem_cons.mp h4 with rfl | h4
    · exact hi'
    · exact hl m h4
  | none =>
    have h0 : 0 < l.length := List.length_pos_iff.mpr hne
    have hd : ∀ c ∈ l.drop 1, c < fs.length := fun c hc => hl c (List.mem_of_mem_drop hc)
    obtain ⟨m, h3, h4⟩ := caPick_some (better := caWorse fs inf) (l.drop 1) l[0] (fun c hc a ha => caWorse_some hf hi (hd c hc) (by
      rcases List.mem_cons.mp ha with rfl | ha
      · exact hl _ (List.getElem_mem _)
      · exact hd a ha))
    simp only [Outcome.get_of_lt h0, h3, Outcome.bind_ok]
    refine ⟨_, rfl, ?_⟩
    rcases List.mem_cons.mp h4 with rfl | h4
    · exact hl _ (List.getElem_mem _)
    · exact hd m h4

theorem caHats_some {feas infs : List Nat} (h1 : ∀ i ∈ feas, i < fs.length) (h2 : ∀ i ∈ infs, i < fs.length) (hne : infs ≠ []) :
    ∃ d u b, caHats fs inf fs.length feas infs = .ok (d, u, b) ∧ d < fs.length ∧ u < fs.length := by
  unfold caHats
  split
  · rename_i h0
    have hd : ∀ c ∈ feas.drop 1, c < fs.length := fun c hc => h1 c (List.mem_of_mem_drop hc)
    obtain ⟨m, h3, h4⟩ := caPick_some (better := caLower fs) (feas.drop 1) feas[0] (fun c hc a ha => caLower_some hf (hd c hc) (by
      rcases List.mem_cons.mp ha with rfl | ha
      · exact h1 _ (List.getElem_mem _)
      · exact hd a ha))
    have hm : m < fs.length := by
      rcases List.mem_cons.mp h4 with rfl | h4
      · exact h1 _ (List.getElem_mem _)
      · exact hd m h4
    obtain ⟨y, hy⟩ := caObj_some hf hm
    obtain ⟨r, hr, hr'⟩ := caHatUp_some hf hi (fd := y) h2 hne
    rw [Outcome.get_of_lt h0, Outcome.bind_ok, h3, Outcome.bind_ok, hy, Outcome.bind_ok, hr]
    exact ⟨_, _, _, rfl, hm, hr'⟩
  · have hn : 0 < fs.length := by
      obtain ⟨i, hi⟩ := List.exists_mem_of_ne_nil _ hne
      have := h2 i hi
      omega
    have hr : ∀ a ∈ 0 :: List.range' 1 (fs.length - 1), a < fs.length := by
      intro a ha
      rcases List.mem_cons.mp ha with rfl | ha
      · exact hn
      · rw [List.mem_range'_1] at ha; omega
    obtain ⟨m, h3, h4⟩ := caPick_some (better := caNearer fs inf) (List.range' 1 (fs.length - 1)) 0
      (fun c hc a ha => caNearer_some hf hi (hr c (by simp [hc])) (hr a ha))
    obtain ⟨m', h5, h6⟩ := caPick_some (better := caWorse fs inf) (List.range' 1 (fs.length - 1)) 0
      (fun c hc a ha => caWorse_some hf hi (hr c (by simp [hc])) (hr a ha))
    rw [h3, Outcome.bind_ok, h5]
    exact ⟨_, _, _, rfl, hr m h4, hr m' h6⟩

end

/-- The data of the penalized problem have the right sizes. -/
structure PenOk (nc : Nat) (pn : Penal K) : Prop where
  cMax : pn.cMax.length = nc
  fDown : pn.fDown.length = nc + 1
  fUp : pn.fUp.length = nc + 1

/-- `update()` does not leave the bounds of any vector, also for NaN and infinite values. -/
theorem caUpdate_some (ht : tol.length = nc) {fs : List (List (Fl K))} (hf : ∀ f ∈ fs, f.length = nc + 1) (hne : fs ≠ []) :
    ∃ pn, caUpdate op nec nc tol fs = .ok pn ∧ PenOk nc pn := by
  obtain ⟨c, hc, hcl⟩ := caCMax_some (op := op) (nec := nec) ht hf
  have hinf : ∃ inf : List (Fl K), fs.mapM (caInfeas op nec nc tol c) = .ok inf ∧ inf.length = fs.length := by
    clear hne hc
    induction fs with
    | nil => exact ⟨[], rfl, rfl⟩
    | cons f fs ih =>
      obtain ⟨l, h1, h2⟩ := ih (fun g hg => hf g (by simp [hg]))
      obtain ⟨y, hy⟩ := caInfeas_some (op := op) (nec := nec) ht hcl (hf f (by simp))
      exact ⟨y :: l, by rw [List.mapM_cons, hy, Outcome.bind_ok, h1]; rfl, by simp [h2]⟩
  obtain ⟨inf, hi, hil⟩ := hinf
  have hn : 0 < fs.length := List.length_pos_iff.mpr hne
  unfold caUpdate
  simp only [hc, hi, Outcome.bind_ok]
  split
  · rw [Outcome.get_of_lt hn]
    have := hf _ (List.getElem_mem hn)
    exact ⟨_, rfl, hcl, this, this⟩
  · rename_i hlen
    have hr : ∀ a ∈ 0 :: List.range' 1 (fs.length - 1), a < fs.length := by
      intro a ha
      rcases List.mem_cons.mp ha with rfl | ha
      · exact hn
      · rw [List.mem_range'_1] at ha; omega
    obtain ⟨d, u, b, h1, hd, hu⟩ := caHats_some hf hil
      (feas := (List.range fs.length).filter (fun i => !Fl.gt (inf.getD i .nan) (.fin 0)))
      (infs := (List.range fs.length).filter (fun i => Fl.gt (inf.getD i .nan) (.fin 0)))
      (fun i h => by simpa using (List.mem_filter.mp h).1) (fun i h => by simpa using (List.mem_filter.mp h).1) (by
        intro h
        apply hlen
        rw [List.filter_eq_nil_iff] at h
        rw [List.filter_eq_self.mpr (fun a ha => by simpa using h a ha), List.length_range])
    obtain ⟨m, h3, h4⟩ := caPick_some (better := caHigher fs) (List.range' 1 (fs.length - 1)) 0
      (fun c hc a ha => caHigher_some hf (hr c (by simp [hc])) (hr a ha))
    have hm := hr m h4
    have l1 := hf _ (List.getElem_mem hd)
    have l2 := hf _ (List.getElem_mem hu)
    have l3 := hf _ (List.getElem_mem hm)
    unfold caPenal
    rw [h1, Outcome.bind_ok, h3, Outcome.bind_ok]
    dsimp only
    rw [Outcome.get_of_lt hm, Outcome.bind_ok, Outcome.get_of_lt hd, Outcome.bind_ok,
      Outcome.get_of_lt hu, Outcome.bind_ok, Outcome.get_of_lt (by omega), Outcome.bind_ok, Outcome.get_of_lt (by omega), Outcome.bind_ok,
      Outcome.get_of_lt (by omega), Outcome.bind_ok, Outcome.get_of_lt (by omega), Outcome.bind_ok, Outcome.get_of_lt (by omega),
      Outcome.bind_ok, Outcome.get_of_lt (by omega), Outcome.bind_ok]
    exact ⟨_, rfl, hcl, l1, l2⟩

theorem caValue_some {ex : Fl K → Fl K} (ht : tol.length = nc) {pn : Penal K} (hp : PenOk nc pn) {fit : List (Fl K)}
    (hf : fit.length = nc + 1) : ∃ y, caValue op ex nec nc tol pn fit = .ok y := by
  obtain ⟨i, hi⟩ := caInfeas_some (op := op) (nec := nec) ht hp.cMax hf
  unfold caValue
  rw [Outcome.get_of_lt (by omega), Outcome.bind_ok, hi, Outcome.bind_ok]
  split
  · unfold caPen1
    split
    · rw [Outcome.get_of_lt (by rw [hp.fDown]; omega), Outcome.bind_ok, Outcome.get_of_lt (by rw [hp.fUp]; omega)]
      exact ⟨_, rfl⟩
    · exact ⟨_, rfl⟩
  · exact ⟨_, rfl⟩

end

/-! ### The run -/

theorem wp_onRef {α : Type} {m : Run (St K σ) α} {Q : α → CaSt K σ → Prop} {E : Exn → CaSt K σ → Prop} {t : CaSt K σ} :
    wp (onRef m) Q E t ↔ wp m (fun a s => Q a { t with ref := s }) (fun e s => E e { t with ref := s }) t.ref := by
  unfold wp onRef
  rcases m t.ref with ⟨_ | _ | _ | _, p⟩ <;> simp

theorem wp_onInn {α : Type} {m : Run (Pop.State K) α} {Q : α → CaSt K σ → Prop} {E : Exn → CaSt K σ → Prop} {t : CaSt K σ} :
    wp (onInn m) Q E t ↔ wp m (fun a s => Q a { t with inn := s }) (fun e s => E e { t with inn := s }) t.inn := by
  unfold wp onInn
  rcases m t.inn with ⟨_ | _ | _ | _, p⟩ <;> simp

theorem wp_caTell {k : Except Exn (List (Fl K)) → Run (CaSt K σ) Unit} {m : Run (CaSt K σ) (List (Fl K))}
    {Q : Unit → CaSt K σ → Prop} {E : Exn → CaSt K σ → Prop} {t : CaSt K σ}
    (h : wp m (fun f t' => wp (k (.ok f)) Q E t') (fun e t' => wp (k (.error e)) Q E t') t) : wp (caTell k m) Q E t := by
  have e : wp (caTell k m) Q E t = match m t with
      | (.ok f, t') => wp (k (.ok f)) Q E t'
      | (.throws e, t') => wp (k (.error e)) Q E t'
      | _ => False := by
    unfold wp caTell
    rcases m t with ⟨_ | _ | _ | _, p⟩ <;> rfl
  rw [e]
  unfold wp at h
  rcases hm : m t with ⟨_ | _ | _ | _, p⟩ <;> rw [hm] at h <;> exact h

theorem wp_onPop_evs {α : Type} {m : Run (Pop.State K) α} {Q : α → St K σ → Prop} {E : Exn → St K σ → Prop} {s : St K σ}
    (h : wp (onPop m) Q E s) : wp (onPop m) Q (fun e s' => E e s' ∧ s'.evs = s.evs) s := by
  rw [wp_onPop] at h ⊢
  exact h.mono (fun _ _ h => h) (fun _ _ h => ⟨h, rfl⟩)

theorem wp_eval_full {P : AProb K} {x : List (Fl K)} {Q : List (Fl K) → St K σ → Prop} {E : Exn → St K σ → Prop}
    {s : St K σ} (hx : x.length = P.info.nx)
    (hq : ∀ f, P.fit s.evs x = .ok f → f.length = P.info.nf → Q f { s with evs := s.evs ++ [(x, .ok f)] })
    (he : ∀ e, E e { s with evs := s.evs ++ [(x, P.fit s.evs x)] }) : wp (eval P x) Q E s := by
  unfold wp eval Pop.probFitness
  simp only [if_neg (not_not.mpr hx)]
  cases h : P.fit s.evs x with
  | error e => have := he e; rw [h] at this; exact this
  | ok f =>
    by_cases hf : f.length = P.info.nf
    · simp only [if_neg (not_not.mpr hf)]
      exact hq f h hf
    · simp only [if_pos hf]
      have := he .invalidArgument
      rw [h] at this
      exact this

theorem wp_getCa {Q : CaSt K σ → CaSt K σ → Prop} {E : Exn → CaSt K σ → Prop} {t : CaSt K σ} :
    wp (Run.get : Run (CaSt K σ) (CaSt K σ)) Q E t ↔ Q t t := Iff.rfl

/-- The pair was in the population before, or the user's function returned `f` for `x`. -/
def Genuine (p0 : Pop.State K) (evs : List (ECall K)) (x f : List (Fl K)) : Prop :=
  (∃ j : Nat, p0.x[j]? = some x ∧ p0.f[j]? = some f) ∨ (x, .ok f) ∈ evs

theorem Genuine.mono {p0 : Pop.State K} {evs new : List (ECall K)} {x f : List (Fl K)} (h : Genuine p0 evs x f) :
    Genuine p0 (evs ++ new) x f := h.imp id (List.mem_append_left _)

/-- The algorithm behaves: whatever the calls return (vectors with one component), it returns a sound population of `NP` individuals, each of which it
either got (`known`) or asked the fitness of in the same call. -/
def Honest (P : AProb K) (NP : Nat) : (List (Fl K) → Prop) → Plan K → Prop
  | known, .done p => Inv (caInfo P) p ∧ p.id.length = NP ∧ ∀ x ∈ p.x, known x
  | _, .fail _ => True
  | known, .ask x k => (∀ y, y.length = 1 → Honest P NP (fun z => known z ∨ z = x) (k (.ok y))) ∧ ∀ e, Honest P NP known (k (.error e))

/-- The algorithm makes at most `n` calls. -/
def AsksAtMost : Nat → Plan K → Prop
  | _, .done _ => True
  | _, .fail _ => True
  | 0, .ask _ _ => False
  | n + 1, .ask _ k => ∀ r, AsksAtMost n (k r)

/-- what holds during the whole run; `n` bounds the number of calls so far -/
structure CaInv (P : AProb K) (s0 : St K σ) (n : Nat) (t : CaSt K σ) : Prop where
  trk : ∃ new, TrackedBy (fun _ => True) P s0 new t.ref ∧ new.length ≤ n
  pen : PenOk P.info.nc t.pen
  cache : ∀ x f, t.map x = some f → Genuine s0.pop t.ref.evs x f ∧ x.length = P.info.nx ∧ f.length = P.info.nf
  pairs : ∀ (i : Nat) (x f : List (Fl K)), t.ref.pop.x[i]? = some x → t.ref.pop.f[i]? = some f → Genuine s0.pop t.ref.evs x f

/-- the number of calls so far -/
def CaErr (s0 : St K σ) (n : Nat) (t : CaSt K σ) : Prop := ∃ new, t.ref.evs = s0.evs ++ new ∧ new.length ≤ n

theorem CaInv.err {P : AProb K} {s0 : St K σ} {n m : Nat} {t : CaSt K σ} (h : CaInv P s0 n t) (hm : n ≤ m) : CaErr s0 m t := by
  obtain ⟨new, h1, h2⟩ := h.trk
  exact ⟨new, h1.evs, by omega⟩

theorem CaInv.le {P : AProb K} {s0 : St K σ} {n m : Nat} {t : CaSt K σ} (h : CaInv P s0 n t) (hm : n ≤ m) : CaInv P s0 m t := by
  obtain ⟨new, h1, h2⟩ := h.trk
  exact ⟨⟨new, h1, by omega⟩, h.pen, h.cache, h.pairs⟩

/-- A call of the penalized fitness function leaves everything but the cache and the count alone. -/
structure SameBut (t t' : CaSt K σ) : Prop where
  pop : t'.ref.pop = t.ref.pop
  inn : t'.inn = t.inn
  keys : ∀ x, t.map x ≠ none → t'.map x ≠ none
  evs : ∀ c ∈ t.ref.evs, c ∈ t'.ref.evs

theorem SameBut.refl (t : CaSt K σ) : SameBut t t := ⟨rfl, rfl, fun _ h => h, fun _ h => h⟩

theorem SameBut.trans {t t' t'' : CaSt K σ} (h : SameBut t t') (h' : SameBut t' t'') : SameBut t t'' :=
  ⟨h'.pop.trans h.pop, h'.inn.trans h.inn, fun x hx => h'.keys x (h.keys x hx), fun c hc => h'.evs c (h.evs c hc)⟩

variable {P : AProb K} {s0 : St K σ} {v : CaEnv K σ}

theorem CaInv.inv {n : Nat} {t : CaSt K σ} (h : CaInv P s0 n t) : Inv P.info t.ref.pop ∧ t.ref.pop.id = s0.pop.id ∧
    t.ref.pop.tol = s0.pop.tol := by
  obtain ⟨new, h1, _⟩ := h.trk
  exact ⟨h1.inv, h1.id, h1.tol⟩

theorem nf_eq (hnobj : P.info.nobj = 1) : P.info.nf = P.info.nc + 1 := by
  unfold Info.nf Info.nc
  omega

theorem wp_caValue (hnobj : P.info.nobj = 1) {n : Nat} {t : CaSt K σ} (h : CaInv P s0 n t) {f : List (Fl K)} (hf : f.length = P.info.nf)
    {Q : List (Fl K) → CaSt K σ → Prop} {E : Exn → CaSt K σ → Prop} (hq : ∀ y : List (Fl K), y.length = 1 → Q y t) :
    wp (do
      let s ← Run.get
      let y ← Run.lift (caValue v.op v.ex P.info.nec P.info.nc s.ref.pop.tol s.pen f)
      pure [y]) Q E t := by
  rw [wp_bind, wp_getCa]
  obtain ⟨y, hy⟩ := caValue_some (op := v.op) (nec := P.info.nec) (ex := v.ex) h.inv.1.tol h.pen (hf.trans (nf_eq hnobj))
  rw [hy, wp_bind, wp_lift_ok]
  exact hq [y] rfl

/-- a call for a point in the cache -/
theorem wp_caFitness_known (hnobj : P.info.nobj = 1) {n : Nat} {t : CaSt K σ} (h : CaInv P s0 n t) {x : List (Fl K)}
    (hx : t.map x ≠ none) {Q : List (Fl K) → CaSt K σ → Prop} {E : Exn → CaSt K σ → Prop}
    (hq : ∀ y : List (Fl K), y.length = 1 → Q y t) : wp (caFitness v P x) Q E t := by
  obtain ⟨f, hf⟩ := Option.ne_none_iff_exists'.mp hx
  obtain ⟨_, h2, h3⟩ := h.cache x f hf
  unfold caFitness
  rw [if_neg (not_not.mpr h2), wp_bind]
  unfold caLookup
  rw [wp_bind, wp_getCa, hf]
  exact wp_caValue hnobj h h3 hq

/-- any call -/
theorem wp_caFitness (hnobj : P.info.nobj = 1) {n : Nat} {t : CaSt K σ} (h : CaInv P s0 n t) {x : List (Fl K)}
    {Q : List (Fl K) → CaSt K σ → Prop} {E : Exn → CaSt K σ → Prop}
    (hq : ∀ (y : List (Fl K)) t', y.length = 1 → CaInv P s0 (n + 1) t' → SameBut t t' → t'.map x ≠ none → Q y t')
    (he : ∀ e t', CaInv P s0 (n + 1) t' → SameBut t t' → E e t') : wp (caFitness v P x) Q E t := by
  by_cases hx : t.map x = none
  · unfold caFitness
    split
    · exact he _ _ (h.le (by omega)) (SameBut.refl t)
    · rename_i hl
      rw [not_not] at hl
      rw [wp_bind]
      unfold caLookup
      rw [wp_bind, wp_getCa, hx]
      show wp (onRef (eval P x) >>= _) _ _ t
      rw [wp_bind, wp_onRef]
      obtain ⟨new, ht, hn⟩ := h.trk
      refine wp_eval_full hl ?_ ?_
      · intro f hf hfl
        rw [wp_bind, wp_modify, wp_pure]
        have hI : CaInv P s0 (n + 1) { t with ref := { t.ref with evs := t.ref.evs ++ [(x, .ok f)] }, map := t.map.put x f } := by
          refine ⟨⟨new ++ [(x, .ok f)], ⟨ht.inv, ht.id, ht.tol, ?_, by simp, ?_, ht.faults⟩, by simp; omega⟩, h.pen, ?_, ?_⟩
          · rw [← List.append_assoc, ← ht.evs]
          · intro p hp
            rcases List.mem_append.mp hp with hp | hp
            · exact ht.user p hp
            · rw [List.mem_singleton.mp hp]; exact ⟨_, hf.symm⟩
          · intro x' f' h'
            show Genuine s0.pop (t.ref.evs ++ [(x, .ok f)]) x' f' ∧ _
            have h'' : (if x' = x then some f else t.map x') = some f' := h'
            split at h''
            · rename_i e
              cases h''
              rw [e]
              exact ⟨Or.inr (List.mem_append_right _ (List.mem_singleton_self _)), hl, hfl⟩
            · have := h.cache x' f' h''
              exact ⟨this.1.mono, this.2⟩
          · intro i x' f' h1 h2
            exact (h.pairs i x' f' h1 h2).mono
        refine wp_caValue hnobj hI hfl (fun y hy => hq y _ hy hI ⟨rfl, rfl, ?_, fun _ h => List.mem_append_left _ h⟩ ?_)
        · intro x' h'
          show (if x' = x then some f else t.map x') ≠ none
          split
          · simp
          · exact h'
        · show (if x = x then some f else t.map x) ≠ none
          simp
      · intro e
        refine he e _ ⟨⟨new ++ [(x, P.fit t.ref.evs x)], ⟨ht.inv, ht.id, ht.tol, ?_, by simp, ?_, ht.faults⟩, by simp; omega⟩, h.pen, ?_, ?_⟩
          ⟨rfl, rfl, fun _ h => h, fun _ h => List.mem_append_left _ h⟩
        · rw [← List.append_assoc, ← ht.evs]
        · intro p hp
          rcases List.mem_append.mp hp with hp | hp
          · exact ht.user p hp
          · rw [List.mem_singleton.mp hp]; exact ⟨_, rfl⟩
        · intro x' f' h'
          have := h.cache x' f' h'
          exact ⟨this.1.mono, this.2⟩
        · intro i x' f' h1 h2
          exact (h.pairs i x' f' h1 h2).mono
  · exact wp_caFitness_known hnobj h hx (fun y hy => hq y t hy (h.le (by omega)) (SameBut.refl t) hx)

/-- The inner algorithm, run on the penalized problem. -/
theorem wp_exec (hnobj : P.info.nobj = 1) {NP : Nat} (plan : Plan K) : ∀ (known : List (Fl K) → Prop) (m n : Nat) (t : CaSt K σ),
    CaInv P s0 n t → (∀ x, known x → t.map x ≠ none) → Honest P NP known plan → AsksAtMost m plan →
    wp (plan.exec v P) (fun _ t' => CaInv P s0 (n + m) t' ∧ t'.ref.pop = t.ref.pop ∧ Inv (caInfo P) t'.inn ∧ t'.inn.id.length = NP ∧
      (∀ x ∈ t'.inn.x, t'.map x ≠ none) ∧ ∀ c ∈ t.ref.evs, c ∈ t'.ref.evs) (fun _ t' => CaErr s0 (n + m) t') t := by
  induction plan with
  | done p =>
    rintro known m n t hI hk ⟨h1, h2, h3⟩ _
    exact ⟨⟨(hI.le (by omega)).trk, hI.pen, hI.cache, hI.pairs⟩, rfl, h1, h2, fun x hx => hk x (h3 x hx), fun _ h => h⟩
  | fail e =>
    intro known m n t hI _ _ _
    exact hI.err (by omega)
  | ask x k ih =>
    rintro known m n t hI hk ⟨h1, h2⟩ hm
    cases m with
    | zero => exact absurd hm (by simp [AsksAtMost])
    | succ m =>
      have hm' : ∀ r, AsksAtMost m (k r) := by simpa [AsksAtMost] using hm
      unfold Plan.exec
      refine wp_caTell (wp_caFitness hnobj hI ?_ ?_)
      · intro y t' hy hI' hs hx
        refine (ih (.ok y) _ m (n + 1) t' hI' ?_ (h1 y hy) (hm' _)).mono ?_ ?_
        · rintro z (hz | rfl)
          · exact hs.keys z (hk z hz)
          · exact hx
        · rintro _ t'' ⟨g1, g2, g3, g4, g5, g6⟩
          exact ⟨g1.le (by omega), g2.trans hs.pop, g3, g4, g5, fun c hc => g6 c (hs.evs c hc)⟩
        · rintro _ t'' ⟨new, g1, g2⟩
          exact ⟨new, g1, by omega⟩
      · intro e t' hI' hs
        refine (ih (.error e) known m (n + 1) t' hI' (fun z hz => hs.keys z (hk z hz)) (h2 e) (hm' _)).mono ?_ ?_
        · rintro _ t'' ⟨g1, g2, g3, g4, g5, g6⟩
          exact ⟨g1.le (by omega), g2.trans hs.pop, g3, g4, g5, fun c hc => g6 c (hs.evs c hc)⟩
        · rintro _ t'' ⟨new, g1, g2⟩
          exact ⟨new, g1, by omega⟩

/-! ### The cache -/

theorem caCache_spec (xs fs : List (List (Fl K))) :
    (∀ x f, caCache xs fs x = some f → ∃ j : Nat, xs[j]? = some x ∧ fs[j]? = some f) ∧
    ∀ (j : Nat) x f, xs[j]? = some x → fs[j]? = some f → caCache xs fs x ≠ none := by
  have gen : ∀ (l : List (List (Fl K) × List (Fl K))) (m : Cache K),
      (∀ x f, l.foldl (fun m p => m.put p.1 p.2) m x = some f → m x = some f ∨ (x, f) ∈ l) ∧
      (∀ x, m x ≠ none → l.foldl (fun m p => m.put p.1 p.2) m x ≠ none) ∧
      ∀ p ∈ l, l.foldl (fun m p => m.put p.1 p.2) m p.1 ≠ none := by
    intro l
    induction l with
    | nil => intro m; simp
    | cons p l ih =>
      intro m
      obtain ⟨h1, h2, h3⟩ := ih (m.put p.1 p.2)
      have hp : m.put p.1 p.2 p.1 ≠ none := by simp [Cache.put]
      refine ⟨fun x f h => ?_, fun x hx => h2 x ?_, fun q hq => ?_⟩
      · rcases h1 x f h with h | h
        · unfold Cache.put at h
          split at h
          · rename_i e
            cases h
            exact Or.inr (by rw [e]; simp)
          · exact Or.inl h
        · exact Or.inr (by simp [h])
      · unfold Cache.put
        split
        · simp
        · exact hx
      · rcases List.mem_cons.mp hq with rfl | hq
        · exact h2 _ hp
        · exact h3 q hq
  obtain ⟨h1, _, h3⟩ := gen (xs.zip fs) (fun _ => none)
  constructor
  · intro x f h
    rcases h1 x f h with h | h
    · cases h
    · obtain ⟨j, hj⟩ := List.mem_iff_getElem?.mp h
      rw [List.getElem?_zip_eq_some] at hj
      exact ⟨j, hj⟩
  · intro j x f hx hf
    exact h3 (x, f) (List.mem_iff_getElem?.mpr ⟨j, by rw [List.getElem?_zip_eq_some]; exact ⟨hx, hf⟩⟩)

/-- every individual of the reference population is in the cache -/
def Covers (t : CaSt K σ) : Prop := ∀ x ∈ t.ref.pop.x, t.map x ≠ none

variable [IsStrictOrderedRing K]

theorem cacheOf {n : Nat} {t : CaSt K σ} (h : CaInv P s0 n t) (pn : Penal K) (hp : PenOk P.info.nc pn) :
    CaInv P s0 n { t with pen := pn, map := caCache t.ref.pop.x t.ref.pop.f } ∧
      Covers { t with pen := pn, map := caCache t.ref.pop.x t.ref.pop.f } := by
  obtain ⟨h1, h2⟩ := caCache_spec t.ref.pop.x t.ref.pop.f
  have hi := h.inv.1
  refine ⟨⟨h.trk, hp, ?_, h.pairs⟩, ?_⟩
  · intro x f hx
    obtain ⟨j, hj, hj'⟩ := h1 x f hx
    exact ⟨h.pairs j x f hj hj', hi.wf.dimX _ (List.mem_of_getElem? hj), hi.wf.dimF _ (List.mem_of_getElem? hj')⟩
  · intro x hx
    obtain ⟨j, hj⟩ := List.mem_iff_getElem?.mp hx
    have hl : j < t.ref.pop.f.length := by
      have h0 : j < t.ref.pop.x.length := (List.getElem?_eq_some_iff.mp hj).1
      have := hi.wf.xs
      have := hi.wf.fs
      omega
    exact h2 j x _ hj (List.getElem?_eq_getElem hl)

theorem wp_caRefresh (hnobj : P.info.nobj = 1) {n : Nat} {t : CaSt K σ} (h : CaInv P s0 n t) (hne : t.ref.pop.id ≠ [])
    {Q : Unit → CaSt K σ → Prop} {E : Exn → CaSt K σ → Prop}
    (hq : ∀ t', CaInv P s0 n t' → t'.ref = t.ref → t'.inn = t.inn → Covers t' → Q () t') : wp (caRefresh v P) Q E t := by
  have hi := h.inv.1
  obtain ⟨pn, hp, hpo⟩ := caUpdate_some (op := v.op) (nec := P.info.nec) hi.tol
    (fun f hf => (hi.wf.dimF f hf).trans (nf_eq hnobj)) (fun h => hne (List.length_eq_zero_iff.mp (by rw [← hi.wf.fs, h]; rfl)))
  unfold caRefresh
  rw [wp_bind, wp_getCa, hp, wp_bind, wp_lift_ok, wp_modify]
  obtain ⟨h1, h2⟩ := cacheOf h pn hpo
  exact hq _ h1 rfl rfl h2

theorem wp_setX (hnobj : P.info.nobj = 1) (hnx : 0 < P.info.nx) {N n : Nat} {t : CaSt K σ} (h : CaInv P s0 n t) (hc : Covers t)
    (hi : Inv (caInfo P) t.inn) (hl : t.inn.id.length ≤ t.ref.pop.id.length) (hn : n ≤ N) :
    wp ((List.range t.inn.id.length).foldlM (caSetX v P) ()) (fun _ t' => CaInv P s0 n t' ∧ t'.ref = t.ref ∧ t'.map = t.map ∧
      Inv (caInfo P) t'.inn ∧ t'.inn.id.length = t.inn.id.length ∧ t'.inn.x = t.ref.pop.x.take t.inn.id.length) (fun _ t' => CaErr s0 N t') t := by
  refine (wp_range (fun j _ t' => CaInv P s0 n t' ∧ t'.ref = t.ref ∧ t'.map = t.map ∧ Inv (caInfo P) t'.inn ∧
    t'.inn.id.length = t.inn.id.length ∧ t'.inn.x = t.ref.pop.x.take j ++ t.inn.x.drop j) _ () t ⟨h, rfl, rfl, hi, rfl, by simp⟩ ?_).mono ?_ (fun _ _ h => h)
  · rintro j _ t' hj ⟨hI, e1, e2, hi', e3, e4⟩
    have hxl : j < t'.ref.pop.x.length := by rw [hI.inv.1.wf.xs, e1]; omega
    unfold caSetX
    rw [wp_bind, wp_getCa, wp_bind, wp_lift_get hxl, wp_bind]
    refine wp_caFitness_known hnobj hI ?_ ?_
    · rw [e2]
      exact hc _ (by rw [← e1]; exact List.getElem_mem _)
    intro y hy
    rw [wp_onInn]
    have key := op_run (sq := v.sq) (P := caInfo P) hnx Nat.one_pos hi' (.setXF j t'.ref.pop.x[j] y)
    refine key.mono ?_ (fun _ _ _ => hI.err hn)
    rintro _ p ⟨hi'', ⟨_, h1, h2, h3⟩, _⟩
    refine ⟨⟨hI.trk, hI.pen, hI.cache, hI.pairs⟩, e1, e2, hi'', by rw [h1]; exact e3, ?_⟩
    show p.x = _
    have l1 : t.inn.x.length = t.inn.id.length := hi.wf.xs
    have l2 : t.ref.pop.x.length = t.ref.pop.id.length := h.inv.1.wf.xs
    rw [h2, e4, ← set_take_drop (by omega) (by omega)]
    congr 1
    simp only [e1]
  · rintro _ t' ⟨h1, h2, h3, h4, h5, h6⟩
    refine ⟨h1, h2, h3, h4, h5, ?_⟩
    rw [h6, List.drop_of_length_le (by rw [hi.wf.xs]), List.append_nil]

theorem wp_push (hnobj : P.info.nobj = 1) (hnx : 0 < P.info.nx) {N n : Nat} {t : CaSt K σ} (h : CaInv P s0 n t) (hc : Covers t)
    (hi : Inv (caInfo P) t.inn) (hl : t.inn.id = []) (hn : n ≤ N) :
    wp ((List.range t.ref.pop.id.length).foldlM (caPush v P) ()) (fun _ t' => CaInv P s0 n t' ∧ t'.ref = t.ref ∧ t'.map = t.map ∧
      Inv (caInfo P) t'.inn ∧ t'.inn.id.length = t.ref.pop.id.length) (fun _ t' => CaErr s0 N t') t := by
  refine wp_range (fun j _ t' => CaInv P s0 n t' ∧ t'.ref = t.ref ∧ t'.map = t.map ∧ Inv (caInfo P) t'.inn ∧
    t'.inn.id.length = j) _ () t ⟨h, rfl, rfl, hi, by rw [hl]; rfl⟩ ?_
  rintro j _ t' hj ⟨hI, e1, e2, hi', e3⟩
  have hxl : j < t'.ref.pop.x.length := by rw [hI.inv.1.wf.xs, e1]; omega
  unfold caPush
  rw [wp_bind, wp_getCa, wp_bind, wp_lift_get hxl, wp_bind]
  refine wp_caFitness_known hnobj hI ?_ ?_
  · rw [e2]
    exact hc _ (by rw [← e1]; exact List.getElem_mem _)
  intro y hy
  rw [wp_onInn]
  have key := op_run (sq := v.sq) (P := caInfo P) hnx Nat.one_pos hi' (.pushXF t'.ref.pop.x[j] y)
  refine key.mono ?_ (fun _ _ _ => hI.err hn)
  rintro _ p ⟨hi'', ⟨⟨i, h1⟩, h2, h3⟩, _⟩
  refine ⟨⟨hI.trk, hI.pen, hI.cache, hI.pairs⟩, e1, e2, hi'', ?_⟩
  show p.id.length = _
  rw [h1, List.length_append, e3]
  rfl

/-- `set_xf` on the reference population with a genuine pair -/
theorem wp_setRef (hnobj : P.info.nobj = 1) (hnx : 0 < P.info.nx) {N n : Nat} {t : CaSt K σ} (h : CaInv P s0 n t) (hn : n ≤ N)
    {i : Nat} (hi : i < t.ref.pop.id.length) {x f : List (Fl K)} (hx : x.length = P.info.nx) (hf : f.length = P.info.nf)
    (hg : Genuine s0.pop t.ref.evs x f) {Q : Unit → CaSt K σ → Prop}
    (hq : ∀ t', CaInv P s0 n t' → t'.map = t.map → t'.inn = t.inn → t'.ref.evs = t.ref.evs → t'.ref.pop.x = t.ref.pop.x.set i x →
      t'.ref.pop.f = t.ref.pop.f.set i f → Q () t') :
    wp (onRef (onPop (setXF v.sq P.info i x f))) Q (fun _ t' => CaErr s0 N t') t := by
  obtain ⟨new, ht, hnl⟩ := h.trk
  rw [wp_onRef]
  refine (wp_onPop_evs (wp_setXF_tracked (v := v.toEnv) (Q := fun _ s' => Q () { t with ref := s' }) (E := fun _ _ => True) hnx (by omega) ht hi
    hx hf ?_ (fun _ _ _ => trivial))).mono (fun _ _ h => h) ?_
  · intro s' ht' _ h1 h2 _
    have hev : s'.evs = t.ref.evs := ht'.evs.trans ht.evs.symm
    refine hq _ ⟨⟨new, ht', hnl⟩, h.pen, ?_, ?_⟩ rfl rfl hev h1 h2
    · intro x' f' hx'
      have := h.cache x' f' hx'
      exact ⟨by rw [show ({ t with ref := s' } : CaSt K σ).ref.evs = t.ref.evs from hev]; exact this.1, this.2⟩
    · intro j x' f' hx' hf'
      show Genuine s0.pop s'.evs x' f'
      rw [hev]
      change s'.pop.x[j]? = _ at hx'
      change s'.pop.f[j]? = _ at hf'
      rw [h1] at hx'
      rw [h2] at hf'
      have l1 := h.inv.1.wf.xs
      have l2 := h.inv.1.wf.fs
      by_cases e : i = j
      · subst e
        rw [List.getElem?_set_self (by omega)] at hx' hf'
        cases hx'; cases hf'
        exact hg
      · rw [List.getElem?_set_ne e] at hx' hf'
        exact h.pairs j x' f' hx' hf'
  · rintro e s' ⟨_, h1⟩
    exact ⟨new, h1.trans ht.evs, by omega⟩

theorem wp_back (hnobj : P.info.nobj = 1) (hnx : 0 < P.info.nx) {N n : Nat} {t : CaSt K σ} (h : CaInv P s0 n t) (hn : n ≤ N)
    (hi : Inv (caInfo P) t.inn) (hl : t.inn.id.length = t.ref.pop.id.length) (hc : ∀ x ∈ t.inn.x, t.map x ≠ none) :
    wp ((List.range t.ref.pop.id.length).foldlM (caBack v P) ()) (fun _ t' => CaInv P s0 n t' ∧ t'.map = t.map ∧ t'.inn = t.inn ∧ t'.ref.evs = t.ref.evs ∧
      ∀ (i : Nat) (x : List (Fl K)), t.inn.x[i]? = some x → t'.ref.pop.x[i]? = some x ∧ t'.ref.pop.f[i]? = t.map x)
      (fun _ t' => CaErr s0 N t') t := by
  refine (wp_range (fun j _ t' => CaInv P s0 n t' ∧ t'.map = t.map ∧ t'.inn = t.inn ∧ t'.ref.evs = t.ref.evs ∧
    ∀ (i : Nat) (x : List (Fl K)), i < j → t.inn.x[i]? = some x → t'.ref.pop.x[i]? = some x ∧ t'.ref.pop.f[i]? = t.map x)
    _ () t ⟨h, rfl, rfl, rfl, fun _ _ h => absurd h (by omega)⟩ ?_).mono ?_ (fun _ _ h => h)
  · rintro j _ t' hj ⟨hI, e1, e2, e0, e3⟩
    have hlen : t'.ref.pop.id.length = t.ref.pop.id.length := by rw [hI.inv.2.1, h.inv.2.1]
    have hxl : j < t'.inn.x.length := by rw [e2, hi.wf.xs]; omega
    unfold caBack
    rw [wp_bind, wp_getCa, wp_bind, wp_lift_get hxl, wp_bind]
    have hk : t'.map t'.inn.x[j] ≠ none := by
      rw [e1]; exact hc _ (by rw [← e2]; exact List.getElem_mem _)
    obtain ⟨f, hf⟩ := Option.ne_none_iff_exists'.mp hk
    obtain ⟨g1, g2, g3⟩ := hI.cache _ f hf
    rw [hf]
    show wp (Run.lift (.ok f)) _ _ t'
    rw [wp_lift_ok]
    refine wp_setRef hnobj hnx hI hn (by omega) g2 g3 g1 ?_
    intro t'' hI' e1' e2' e0' ex ef
    refine ⟨hI', e1'.trans e1, e2'.trans e2, e0'.trans e0, ?_⟩
    intro i x hij hx
    have l1 := hI.inv.1.wf.xs
    have l2 := hI.inv.1.wf.fs
    rw [ex, ef]
    by_cases e : j = i
    · subst e
      have hx' : t'.inn.x[j]? = some x := by rw [e2]; exact hx
      have : t'.inn.x[j] = x := (List.getElem?_eq_some_iff.mp hx').2
      rw [List.getElem?_set_self (by omega), List.getElem?_set_self (by omega), this, ← e1, ← this, hf]
      exact ⟨rfl, rfl⟩
    · rw [List.getElem?_set_ne e, List.getElem?_set_ne e]
      exact e3 i x (by omega) hx
  · rintro _ t' ⟨h1, h2, h3, h0, h4⟩
    refine ⟨h1, h2, h3, h0, fun i x hx => h4 i x ?_ hx⟩
    have := (List.getElem?_eq_some_iff.mp hx).1
    have := hi.wf.xs
    omega

/-- one iteration -/
theorem wp_iter (hnobj : P.info.nobj = 1) (hnx : 0 < P.info.nx) {n m N : Nat} {t : CaSt K σ} (h : CaInv P s0 n t)
    (hi : Inv (caInfo P) t.inn) (hl : t.inn.id.length = t.ref.pop.id.length) (hne : t.ref.pop.id ≠ []) (hN : n + m ≤ N)
    {b w : Nat} {bx bf : List (Fl K)} (hb : bestIdx v.srt v.sq P.info t.ref.pop.f t.ref.pop.tol = .ok b)
    (hw : worstIdx v.srt v.sq P.info t.ref.pop.f t.ref.pop.tol = .ok w) (hwl : w < t.ref.pop.id.length)
    (hbx : t.ref.pop.x[b]? = some bx) (hbf : t.ref.pop.f[b]? = some bf) (plan : Pop.State K → Plan K)
    (hp : ∀ p : Pop.State K, p.x = t.ref.pop.x → Inv (caInfo P) p → p.id.length = t.ref.pop.id.length →
      Honest P t.ref.pop.id.length (· ∈ p.x) (plan p) ∧ AsksAtMost m (plan p)) :
    wp (caIter v P plan) (fun _ t' => CaInv P s0 (n + m) t' ∧ Inv (caInfo P) t'.inn ∧ t'.inn.id.length = t'.ref.pop.id.length ∧
      t'.ref.pop.x[w]? = some bx ∧ t'.ref.pop.f[w]? = some bf ∧
      ∀ (i : Nat) (x : List (Fl K)), i ≠ w → t'.inn.x[i]? = some x → t'.ref.pop.x[i]? = some x ∧ t'.ref.pop.f[i]? = t'.map x)
      (fun _ t' => CaErr s0 N t') t := by
  unfold caIter
  rw [wp_bind, wp_getCa, hb, wp_bind, wp_lift_ok, Outcome.get_eq_ok_iff.mpr hbx, wp_bind, wp_lift_ok, Outcome.get_eq_ok_iff.mpr hbf,
    wp_bind, wp_lift_ok, hw, wp_bind, wp_lift_ok, wp_bind]
  refine wp_caRefresh hnobj h hne ?_
  intro t1 h1 r1 i1 c1
  have p1 : t1.ref.pop = t.ref.pop := by rw [r1]
  rw [wp_bind, ← i1]
  have hl1 : t1.inn.id.length = t1.ref.pop.id.length := by rw [i1, p1]; exact hl
  refine (wp_setX (N := N) hnobj hnx h1 c1 (by rw [i1]; exact hi) hl1.le (by omega)).mono ?_ (fun _ _ h => h)
  rintro _ t2 ⟨h2, r2, m2, i2, l2, x2⟩
  have hx2 : t2.inn.x = t.ref.pop.x := by
    rw [x2, List.take_of_length_le (by rw [h1.inv.1.wf.xs]; omega), p1]
  obtain ⟨hp1, hp2⟩ := hp t2.inn hx2 i2 (by rw [l2, hl1, p1])
  rw [wp_bind, wp_getCa, wp_bind]
  refine (wp_exec hnobj _ _ m n t2 h2 ?_ hp1 hp2).mono ?_ (fun _ _ h => ?_)
  · intro x hx
    rw [m2]
    exact c1 x (by rw [p1, ← hx2]; exact hx)
  · rintro _ t3 ⟨h3, p3, i3, l3, c3, v3⟩
    have p30 : t3.ref.pop = t.ref.pop := by rw [p3, r2, p1]
    rw [wp_bind, ← p30]
    refine (wp_back hnobj hnx h3 hN i3 (by rw [l3, p30]) c3).mono ?_ (fun _ _ h => h)
    rintro _ t4 ⟨h4, m4, i4, v4, e4⟩
    have hid : t4.ref.pop.id.length = t.ref.pop.id.length := by rw [h4.inv.2.1, h.inv.2.1]
    have hg : Genuine s0.pop t4.ref.evs bx bf := by
      have g0 := h.pairs b bx bf hbx hbf
      refine g0.imp id (fun g0 => ?_)
      rw [v4]
      exact v3 _ (by rw [r2, r1]; exact g0)
    refine wp_setRef hnobj hnx h4 hN (by omega) (h.inv.1.wf.dimX _ (List.mem_of_getElem? hbx)) (h.inv.1.wf.dimF _ (List.mem_of_getElem? hbf)) hg ?_
    intro t5 h5 m5 i5 _ x5 f5
    have l1 := h4.inv.1.wf.xs
    have l2 := h4.inv.1.wf.fs
    refine ⟨h5, by rw [i5, i4]; exact i3, ?_, ?_, ?_, ?_⟩
    · rw [i5, i4, l3, h5.inv.2.1, h.inv.2.1]
    · rw [x5, List.getElem?_set_self (by omega)]
    · rw [f5, List.getElem?_set_self (by omega)]
    · intro i x hiw hx
      rw [x5, f5, List.getElem?_set_ne (Ne.symm hiw), List.getElem?_set_ne (Ne.symm hiw), m5, m4]
      exact e4 i x (by rw [i5, i4] at hx; exact hx)
  · obtain ⟨new, g1, g2⟩ := h
    exact ⟨new, g1, by omega⟩

end Verif.Props
