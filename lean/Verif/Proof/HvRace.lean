import Verif.Proof.HvApprox
import Verif.Base.Wlp

/-!
# Lemmas about the race of `bf_approx`
-/

set_option autoImplicit false

namespace Verif.Props

open Verif Verif.Spec Verif.Hv Run

/-- What is assumed of the parameters: exact arithmetic over the reals, lawful random numbers below the upper limit,
conversions without rounding, and an exact hypervolume computation for points above the most negative double. -/
structure ApLaw {σ : Type} (v : ApEnv ℝ σ) (low : ℝ) : Prop where
  op : v.op = Fl.exact ℝ
  gen : v.g.Lawful (fun _ => True)
  strict : ∀ a b e, a < b → (v.g.real a b e).1 < b
  nat : ∀ m : Nat, v.ofNat m = .fin (m : ℝ)
  hv : ∀ (d : Nat) (P : List (List ℝ)) (z : List ℝ), 2 ≤ d → P ≠ [] → Spec.Below d P z → AboveLow low P →
    v.hv (P.map apF) (apF z) = .ok (.fin (hvol d P z))

/-- No other point is nowhere worse than `x`: only point `i` covers it. -/
def Alone (d : Nat) (P : List (List ℝ)) (i : Nat) (x : List ℝ) : Prop :=
  ∀ j : Nat, j < P.length → j ≠ i → ¬ WeakDom d (P.getD j []) x

/-- the points drawn for point `i` -/
def drawsOf (dr : List (Nat × List (Fl ℝ))) (i : Nat) : List (List (Fl ℝ)) :=
  (dr.filter (fun t => t.1 == i)).map (·.2)

/-- the point lies in the box -/
def ApInBox (d : Nat) (p z x : List ℝ) : Prop :=
  x.length = d ∧ ∀ k : Nat, k < d → p.getD k 0 ≤ x.getD k 0 ∧ x.getD k 0 ≤ z.getD k 0

open Classical in
/-- `m` points were drawn for point `i`, all from its box; `c` of them are covered by no other point. -/
def SampOf (d : Nat) (P : List (List ℝ)) (z : List ℝ) (dr : List (Nat × List (Fl ℝ))) (i m c : Nat) : Prop :=
  ∃ xs : List (List ℝ), drawsOf dr i = xs.map apF ∧ (∀ x ∈ xs, ApInBox d (P.getD i []) z x) ∧ m = xs.length ∧
    c = xs.countP (fun x => decide (Alone d P i x))

section
variable {σ : Type} {v : ApEnv ℝ σ} {low : ℝ} {par : ApPar ℝ} {d : Nat} {P : List (List ℝ)} {r : List ℝ}
  {Z : Nat → List ℝ} {B : Nat → List Nat} {N : Prop}

theorem wpn_apDraw (hv : ApLaw v low) {a b : ℝ} (hab : a ≤ b) {s : ApSt ℝ σ} {Q : Fl ℝ → ApSt ℝ σ → Prop}
    {E : Exn → ApSt ℝ σ → Prop}
    (h : ∀ x e', a ≤ x → x ≤ b → (a < b → x < b) → Q (.fin x) { s with e := e' }) :
    wpn N (apDraw v (.fin a) (.fin b)) Q E s := by
  unfold wpn apDraw Gen.drawReal
  rw [hv.op]
  have hf : a ≤ b ∧ ((Fl.exact ℝ).sub (.fin b) (.fin a)).isFinite = true := ⟨hab, rfl⟩
  simp only [if_pos hf]
  exact h _ _ (hv.gen.real_mem a b s.e hab).1 (hv.gen.real_mem a b s.e hab).2 (hv.strict a b s.e)

theorem apDominates_iff {q x : List ℝ} (hq : q.length = d) : apDominates apN (apF q) (apF x) = true ↔ WeakDom d q x := by
  unfold apDominates WeakDom
  rw [apF_length, hq, List.all_eq_true]
  simp only [List.mem_range, apN_lt, Bool.not_eq_true', decide_eq_false_iff_not, not_lt]

theorem apCheck_ok {x : List ℝ} (bp : List Nat) (hb : ∀ j ∈ bp, (P.getD j []).length = d) (ops : Nat) :
    ((apCheck apN (P.map apF) (apF x) ops bp).1 = true ↔ ∀ j ∈ bp, ¬ WeakDom d (P.getD j []) x) ∧
    ops ≤ (apCheck apN (P.map apF) (apF x) ops bp).2 := by
  induction bp generalizing ops with
  | nil => simp [apCheck]
  | cons j js ih =>
    unfold apCheck
    dsimp only
    rw [getD_apF]
    have hj := hb j List.mem_cons_self
    by_cases h : apDominates apN (apF (P.getD j [])) (apF x) = true
    · rw [if_pos h]
      have hw := (apDominates_iff (d := d) hj).mp h
      refine ⟨⟨fun hc => by simp at hc, fun hc => absurd hw (hc j List.mem_cons_self)⟩, ?_⟩
      dsimp only
      omega
    · rw [if_neg h]
      have hw := fun hc => h ((apDominates_iff (d := d) hj).mpr hc)
      obtain ⟨h1, h2⟩ := ih (fun k hk => hb k (List.mem_cons_of_mem _ hk)) (ops + ((apF (P.getD j [])).length + 1))
      refine ⟨?_, by omega⟩
      rw [h1, List.forall_mem_cons]
      exact ⟨fun hh => ⟨hw, hh⟩, fun hh => hh.2⟩

/-- In the box only the overlapping points matter. -/
theorem alone_iff (hac : Antichain d P) {i : Nat} (hi : i < P.length) {z x : List ℝ} {bp : List Nat}
    (hbx : BoxOf d P r (P.getD i []) z) (hbp : OverOf d P i z bp) (hx : ApInBox d (P.getD i []) z x)
    (hs : ∀ k : Nat, k < d → (P.getD i []).getD k 0 < z.getD k 0 → x.getD k 0 < z.getD k 0) :
    (∀ j ∈ bp, ¬ WeakDom d (P.getD j []) x) ↔ Alone d P i x := by
  constructor
  · intro h j hj hji hw
    have hqz : WeakDom d (P.getD j []) z := fun k hk => le_trans (hw k hk) (hx.2 k hk).2
    have hnd := hac i j hi hj hji
    by_cases hov : Overlaps d z (P.getD j [])
    · exact h j ((hbp.2 j).mpr ⟨hj, hji, hnd, hov⟩) hw
    · have heq : ∀ k : Nat, k < d → (P.getD j []).getD k 0 = z.getD k 0 := fun k hk =>
        le_antisymm (hqz k hk) (not_lt.mp (fun hlt => hov ⟨hqz, k, hk, hlt⟩))
      apply hnd
      intro k hk
      have h1 := hw k hk
      rw [heq k hk] at h1 ⊢
      by_contra hc
      exact absurd (hs k hk (not_le.mp hc)) (not_lt.mpr h1)
  · intro h j hj
    obtain ⟨h1, h2, -⟩ := (hbp.2 j).mp hj
    exact h j h1 h2

/-- The invariant of the race: the boxes are as computed, the counters count the draws, and what was resolved exactly
is exact. -/
structure ApInv (par : ApPar ℝ) (d : Nat) (P : List (List ℝ)) (r : List ℝ) (Z : Nat → List ℝ) (B : Nat → List Nat)
    (s : ApSt ℝ σ) : Prop where
  boxes : s.boxes = (List.range P.length).map (fun i => apF (Z i))
  vols : s.boxVol = (List.range P.length).map (fun i => Fl.fin (hvol d [P.getD i []] (Z i)))
  over : s.boxPts = (List.range P.length).map B
  lsam : s.noSamples.length = P.length
  lsuc : s.noSucc.length = P.length
  lops : s.noOps.length = P.length
  lapp : s.approx.length = P.length
  ldel : s.pdelta.length = P.length
  samp : ∀ i : Nat, i < P.length → SampOf d P (Z i) s.draws i (s.noSamples.getD i 0) (s.noSucc.getD i 0)
  exact : ∀ i : Nat, i < P.length → s.noOps.getD i 0 = 0 → par.useExact = true ∧
    s.approx.getD i .nan = .fin (exclVol d P r i) ∧ s.pdelta.getD i .nan = .fin 0

/-- Only what belongs to point `i` changes. -/
structure Untouched (i : Nat) (s s' : ApSt ℝ σ) : Prop where
  active : s'.active = s.active
  ec : s'.ec = s.ec
  rounds : s'.rounds = s.rounds
  ops : ∀ j : Nat, j ≠ i → s'.noOps.getD j 0 = s.noOps.getD j 0
  approx : ∀ j : Nat, j ≠ i → s'.approx.getD j .nan = s.approx.getD j .nan
  pdelta : ∀ j : Nat, j ≠ i → s'.pdelta.getD j .nan = s.pdelta.getD j .nan
  draws : ∀ j : Nat, j ≠ i → drawsOf s'.draws j = drawsOf s.draws j

theorem Untouched.rfl' (i : Nat) (s : ApSt ℝ σ) : Untouched i s s :=
  ⟨rfl, rfl, rfl, fun _ _ => rfl, fun _ _ => rfl, fun _ _ => rfl, fun _ _ => rfl⟩

theorem Untouched.trans {i : Nat} {s s' s'' : ApSt ℝ σ} (h : Untouched i s s') (h' : Untouched i s' s'') :
    Untouched i s s'' :=
  ⟨h'.active.trans h.active, h'.ec.trans h.ec, h'.rounds.trans h.rounds, fun j hj => (h'.ops j hj).trans (h.ops j hj),
    fun j hj => (h'.approx j hj).trans (h.approx j hj), fun j hj => (h'.pdelta j hj).trans (h.pdelta j hj),
    fun j hj => (h'.draws j hj).trans (h.draws j hj)⟩

theorem getD_set_ne {α : Type} {l : List α} {i j : Nat} {a b : α} (h : j ≠ i) : (l.set i a).getD j b = l.getD j b := by
  rw [List.getD_eq_getElem?_getD, List.getD_eq_getElem?_getD, List.getElem?_set_ne (Ne.symm h)]

theorem getD_set_self {α : Type} {l : List α} {i : Nat} {a b : α} (h : i < l.length) : (l.set i a).getD i b = a := by
  rw [List.getD_eq_getElem?_getD, List.getElem?_set_self h]; rfl

theorem get_range_map {α : Type} {n i : Nat} (h : i < n) (f : Nat → α) :
    Outcome.get ((List.range n).map f) i = .ok (f i) := by
  rw [Outcome.get_of_lt (by simpa using h)]; simp

theorem getD_range_map' {α : Type} {n i : Nat} (h : i < n) (f : Nat → α) (b : α) :
    ((List.range n).map f).getD i b = f i := by
  rw [List.getD_eq_getElem _ _ (by simpa using h)]; simp

theorem get_map_apF {i : Nat} (h : i < P.length) : Outcome.get (P.map apF) i = .ok (apF (P.getD i [])) := by
  rw [Outcome.get_of_lt (by simpa using h), List.getElem_map, List.getD_eq_getElem _ _ h]

theorem get_apF {p : List ℝ} {k : Nat} (h : k < p.length) : Outcome.get (apF p) k = .ok (.fin (p.getD k 0)) := by
  rw [Outcome.get_of_lt (by rw [apF_length]; exact h), List.getD_eq_getElem _ _ h]
  simp [apF]

theorem drawsOf_snoc_ne {dr : List (Nat × List (Fl ℝ))} {i j : Nat} {x : List (Fl ℝ)} (h : j ≠ i) :
    drawsOf (dr ++ [(i, x)]) j = drawsOf dr j := by
  unfold drawsOf
  rw [List.filter_append, List.filter_cons_of_neg (by simpa using Ne.symm h), List.filter_nil, List.append_nil]

theorem drawsOf_snoc_self {dr : List (Nat × List (Fl ℝ))} {i : Nat} {x : List (Fl ℝ)} :
    drawsOf (dr ++ [(i, x)]) i = drawsOf dr i ++ [x] := by
  unfold drawsOf
  rw [List.filter_append, List.filter_cons_of_pos (by simp), List.filter_nil, List.map_append]; rfl

/-- One sample. -/
theorem wpn_apSample (hv : ApLaw v low) (hac : Antichain d P) (hlen : ∀ i : Nat, i < P.length → (P.getD i []).length = d)
    (hZ : ∀ i : Nat, i < P.length → BoxOf d P r (P.getD i []) (Z i) ∧ OverOf d P i (Z i) (B i))
    {i : Nat} (hi : i < P.length) {s : ApSt ℝ σ} (hs : ApInv par d P r Z B s) (hno : s.noOps.getD i 0 ≠ 0) :
    wpn N (apSample v (P.map apF) i)
      (fun _ s' => ApInv par d P r Z B s' ∧ Untouched i s s' ∧ s'.noOps.getD i 0 ≠ 0) (fun _ _ => False) s := by
  unfold apSample
  rw [wpn_bind, wpn_get, wpn_bind, get_map_apF hi, wpn_lift_ok, wpn_bind, hs.boxes, get_range_map hi, wpn_lift_ok,
    wpn_bind, hs.over, get_range_map hi, wpn_lift_ok, wpn_bind, apF_length, hlen i hi]
  obtain ⟨hbx, hbp⟩ := hZ i hi
  refine (wpn_range (fun k x t => ∃ (y : List ℝ) (e : σ), x = apF y ∧ y.length = k ∧ t = { s with e := e } ∧
      (∀ m : Nat, m < k → (P.getD i []).getD m 0 ≤ y.getD m 0 ∧ y.getD m 0 ≤ (Z i).getD m 0 ∧
        ((P.getD i []).getD m 0 < (Z i).getD m 0 → y.getD m 0 < (Z i).getD m 0))) d [] s
    ⟨[], s.e, rfl, rfl, rfl, fun m hm => absurd hm (Nat.not_lt_zero m)⟩ ?_).mono ?_ (fun _ _ h => h)
  · rintro k x t hk ⟨y, e, rfl, hy, rfl, hin⟩
    rw [wpn_bind, get_apF (by rw [hlen i hi]; exact hk), wpn_lift_ok, wpn_bind, get_apF (by rw [hbx.len]; exact hk),
      wpn_lift_ok, wpn_bind]
    refine wpn_apDraw hv (hbx.low k hk) (fun u e' h1 h2 h3 => ?_)
    rw [wpn_pure]
    refine ⟨y ++ [u], e', by simp [apF], by simp [hy], rfl, fun m hm => ?_⟩
    rcases Nat.lt_succ_iff_lt_or_eq.mp hm with hm | rfl
    · rw [List.getD_append _ _ _ _ (by omega)]
      exact hin m hm
    · rw [List.getD_append_right _ _ _ _ (by omega), hy]
      simpa using ⟨h1, h2, h3⟩
  · rintro x t ⟨y, e, rfl, hy, rfl, hin⟩
    have hbox : ApInBox d (P.getD i []) (Z i) y := ⟨hy, fun k hk => ⟨(hin k hk).1, (hin k hk).2.1⟩⟩
    have hal := alone_iff hac hi hbx hbp hbox (fun k hk => (hin k hk).2.2)
    change (fun s' => ApInv par d P r Z B s' ∧ Untouched i s s' ∧ s'.noOps.getD i 0 ≠ 0)
      (apCount (Num.ofFl v.op 0) (P.map apF) i (B i) (apF y) { s with e := e })
    rw [hv.op]
    obtain ⟨c1, c2⟩ := apCheck_ok (d := d) (P := P) (x := y) (B i) (fun j hj => hlen j ((hbp.2 j).mp hj).1) (s.noOps.getD i 0)
    rw [hal] at c1
    generalize hc : apCheck apN (P.map apF) (apF y) (s.noOps.getD i 0) (B i) = c at c1 c2
    simp only [apCount, hc]
    have hops : (s.noOps.set i c.2).getD i 0 ≠ 0 := by
      rw [getD_set_self (by rw [hs.lops]; exact hi)]
      omega
    refine ⟨?_, ?_, hops⟩
    · refine ⟨hs.boxes, hs.vols, hs.over, by simpa using hs.lsam, ?_, by simpa using hs.lops, hs.lapp, hs.ldel, ?_, ?_⟩
      · dsimp only; split
        · simpa using hs.lsuc
        · exact hs.lsuc
      · intro j hj
        obtain ⟨xs, h1, h2, h3, h4⟩ := hs.samp j hj
        by_cases hji : j = i
        · subst hji
          refine ⟨xs ++ [y], ?_, ?_, ?_, ?_⟩
          · dsimp only
            rw [drawsOf_snoc_self, h1, List.map_append]; rfl
          · intro x hx
            rcases List.mem_append.mp hx with hx | hx
            · exact h2 x hx
            · rw [List.mem_singleton.mp hx]; exact hbox
          · dsimp only
            rw [getD_set_self (by rw [hs.lsam]; exact hj), List.length_append, h3]; rfl
          · dsimp only
            rw [List.countP_append, ← h4]
            by_cases hA : Alone d P j y
            · rw [if_pos (c1.mpr hA), getD_set_self (by rw [hs.lsuc]; exact hj)]
              simp [hA]
            · rw [if_neg (fun h => hA (c1.mp h))]
              simp [hA]
        · refine ⟨xs, ?_, h2, ?_, ?_⟩
          · dsimp only
            rw [drawsOf_snoc_ne hji]; exact h1
          · dsimp only
            rw [getD_set_ne hji]; exact h3
          · dsimp only
            split
            · rw [getD_set_ne hji]; exact h4
            · exact h4
      · intro j hj h0
        dsimp only at h0 ⊢
        by_cases hji : j = i
        · subst hji; exact absurd h0 hops
        · rw [getD_set_ne hji] at h0
          exact hs.exact j hj h0
    · exact ⟨rfl, rfl, rfl, fun j hj => getD_set_ne hj, fun _ _ => rfl, fun _ _ => rfl, fun j hj => drawsOf_snoc_ne hj⟩

/-- The sampling loop. -/
theorem wpn_apDrawLoop (hv : ApLaw v low) (hac : Antichain d P) (hlen : ∀ i : Nat, i < P.length → (P.getD i []).length = d)
    (hZ : ∀ i : Nat, i < P.length → BoxOf d P r (P.getD i []) (Z i) ∧ OverOf d P i (Z i) (B i)) (hN : N)
    {i : Nat} (hi : i < P.length) (req : Fl ℝ) (fuel : Nat) {s : ApSt ℝ σ} (hs : ApInv par d P r Z B s)
    (hno : s.noOps.getD i 0 ≠ 0) :
    wpn N (apDrawLoop v (P.map apF) i req fuel)
      (fun _ s' => ApInv par d P r Z B s' ∧ Untouched i s s' ∧ s'.noOps.getD i 0 ≠ 0 ∧
        Fl.lt (.fin (s'.noSamples.getD i 0 : ℝ)) req = false) (fun _ _ => False) s := by
  induction fuel generalizing s with
  | zero => exact hN
  | succ k ih =>
    unfold apDrawLoop
    rw [wpn_bind, wpn_get, wpn_bind, wpn_lift_get (by rw [hs.lsam]; exact hi)]
    rw [hv.nat, ← List.getD_eq_getElem s.noSamples 0 (by rw [hs.lsam]; exact hi)]
    split
    · rw [wpn_bind]
      refine (wpn_apSample hv hac hlen hZ hi hs hno).mono (fun _ s1 h1 => ?_) (fun _ _ h => h)
      exact (ih h1.1 h1.2.2).mono (fun _ s2 h2 => ⟨h2.1, h1.2.1.trans h2.2.1, h2.2.2⟩) (fun _ _ h => h)
    · next hlt =>
      rw [wpn_pure]
      exact ⟨hs, Untouched.rfl' i s, hno, by simpa using hlt⟩

theorem apSubFront_eq {p : List ℝ} (bp : List Nat) : apSubFront apN (P.map apF) (apF p) d bp =
    ((bp.map (fun j => P.getD j [])).map (fun q => (List.range d).map (fun k => max (p.getD k 0) (q.getD k 0)))).map apF := by
  unfold apSubFront
  rw [List.map_map, List.map_map]
  refine List.map_congr_left (fun j _ => ?_)
  change _ = List.map Fl.fin ((List.range d).map (fun k => max (p.getD k 0) ((P.getD j []).getD k 0)))
  rw [List.map_map]
  refine List.map_congr_left (fun k _ => ?_)
  rw [getD_apF, apN_at, apN_at]
  unfold Fl.stdMax
  rw [fl_lt_fin]
  simp only [decide_eq_true_eq, Function.comp_apply]
  rcases lt_or_ge (p.getD k 0) ((P.getD j []).getD k 0) with h | h
  · rw [if_pos h, max_eq_right h.le]
  · rw [if_neg (not_lt.mpr h), max_eq_left h]

theorem mem_eraseIdx_getD {i : Nat} {q : List ℝ} :
    q ∈ P.eraseIdx i ↔ ∃ j : Nat, j < P.length ∧ j ≠ i ∧ P.getD j [] = q := by
  rw [List.mem_eraseIdx_iff_getElem]
  constructor
  · rintro ⟨j, h1, h2, h3⟩
    exact ⟨j, h1, h2, by rw [List.getD_eq_getElem _ _ h1]; exact h3⟩
  · rintro ⟨j, h1, h2, h3⟩
    rw [List.getD_eq_getElem _ _ h1] at h3
    exact ⟨j, h1, h2, h3⟩

/-- The exact step. -/
theorem apExactVol_ok (hv : ApLaw v low) (hd : 2 ≤ d) (hb : Spec.Below d P r) (hlow : AboveLow low P) (hac : Antichain d P)
    {i : Nat} (hi : i < P.length) {z : List ℝ} {bp : List Nat} (hbx : BoxOf d P r (P.getD i []) z) (hbp : OverOf d P i z bp) :
    apExactVol v (P.map apF) (apF (P.getD i [])) (apF z) (.fin (hvol d [P.getD i []] z)) d bp =
      .ok (.fin (exclVol d P r i)) := by
  have hpi : P.getD i [] = P[i] := List.getD_eq_getElem _ _ hi
  have hmem : ∀ q, q ∈ bp.map (fun j => P.getD j []) ↔ q ∈ P.eraseIdx i ∧ Overlaps d z q := by
    intro q
    rw [mem_eraseIdx_getD, List.mem_map]
    constructor
    · rintro ⟨j, hj, rfl⟩
      obtain ⟨h1, h2, -, h4⟩ := (hbp.2 j).mp hj
      exact ⟨⟨j, h1, h2, rfl⟩, h4⟩
    · rintro ⟨⟨j, h1, h2, rfl⟩, h4⟩
      exact ⟨j, (hbp.2 j).mpr ⟨h1, h2, hac i j hi h1 h2, h4⟩, rfl⟩
  have hl : ∀ q : List ℝ, ∀ k : Nat, k < d →
      ((List.range d).map (fun k => max ((P.getD i []).getD k 0) (q.getD k 0))).getD k 0 = max ((P.getD i []).getD k 0) (q.getD k 0) :=
    fun q k hk => getD_range_map' hk _ _
  have hex := box_exact hd hi (r := r) (z := z) (hpi ▸ hbx) hmem
    (l := fun q => (List.range d).map (fun k => max ((P.getD i []).getD k 0) (q.getD k 0)))
    (fun q _ k hk => by rw [← hpi]; exact hl q k hk)
  rw [← hpi] at hex
  unfold apExactVol
  by_cases h0 : bp.length = 0
  · rw [if_pos h0]
    have : bp = [] := List.length_eq_zero_iff.mp h0
    subst this
    rw [List.map_nil, List.map_nil, hvol_nil, sub_zero] at hex
    rw [hex]
  · rw [if_neg h0]
    rw [hv.op, apSubFront_eq, hv.hv d _ z hd]
    · change Outcome.ok (Fl.fin (hvol d [P.getD i []] z + -hvol d _ z)) = _
      rw [← sub_eq_add_neg, hex]
    · intro hc
      rw [List.map_eq_nil_iff, List.map_eq_nil_iff] at hc
      rw [hc] at h0
      exact h0 rfl
    · refine ⟨hbx.len, fun q hq => ?_⟩
      obtain ⟨q', hq', rfl⟩ := List.mem_map.mp hq
      refine ⟨by simp, fun k hk => ?_⟩
      rw [hl q' k hk]
      exact max_le (hbx.low k hk) (((hmem q').mp hq').2.1 k hk)
    · intro q hq a ha
      obtain ⟨q', hq', rfl⟩ := List.mem_map.mp hq
      obtain ⟨k, hk, rfl⟩ := List.mem_map.mp ha
      have hk' := List.mem_range.mp hk
      refine lt_of_lt_of_le ?_ (le_max_left _ _)
      rw [hpi, List.getD_eq_getElem _ _ (by rw [(hb.2 _ (List.getElem_mem hi)).1]; exact hk')]
      exact hlow _ (List.getElem_mem hi) _ (List.getElem_mem _)

/-- The volume of the box between two points. -/
noncomputable def boxVolume (d : Nat) (p z : List ℝ) : ℝ := ∏ k ∈ Finset.range d, (z.getD k 0 - p.getD k 0)

/-- What is known of the estimate `a ± da` for point `i` after the sampling of a round: it is the contribution itself,
or the volume of the box times the fraction of the points drawn from it that no other point covers, with the half width
of Bringmann and Friedrich; then the number of points drawn is not less than what the half width `delta` requires. -/
def EstOf (v : ApEnv ℝ σ) (par : ApPar ℝ) (d : Nat) (P : List (List ℝ)) (r : List ℝ) (logf : Fl ℝ) (round : Nat) (delta : Fl ℝ)
    (i no : Nat) (a da : Fl ℝ) (dr : List (Nat × List (Fl ℝ))) : Prop :=
  (no = 0 → par.useExact = true ∧ a = .fin (exclVol d P r i) ∧ da = .fin 0) ∧
  (no ≠ 0 → ∃ (z : List ℝ) (m c : Nat), BoxOf d P r (P.getD i []) z ∧ SampOf d P z dr i m c ∧
    a = Fl.mul (Fl.div (.fin (c : ℝ)) (.fin (m : ℝ))) (.fin (boxVolume d (P.getD i []) z)) ∧
    da = Fl.mul (v.sqrt (Fl.div (Fl.mul v.half (Fl.add (Fl.mul (Fl.add (.fin 1) par.gamma) (v.log (.fin (round : ℝ)))) logf))
      (.fin (m : ℝ)))) (.fin (boxVolume d (P.getD i []) z)) ∧
    Fl.lt (.fin (m : ℝ)) (Fl.mul (Fl.mul (Fl.mul v.half (Fl.add (Fl.mul (Fl.add (.fin 1) par.gamma) (v.log (.fin (round : ℝ)))) logf))
      (Fl.div (.fin (boxVolume d (P.getD i []) z)) delta)) (Fl.div (.fin (boxVolume d (P.getD i []) z)) delta)) = false) ∧
  (par.useExact = true → P.length ≤ par.trivial + 1 → no = 0)

theorem EstOf.congr {logf delta : Fl ℝ} {round i no : Nat} {a da : Fl ℝ} {dr dr' : List (Nat × List (Fl ℝ))}
    (h : EstOf v par d P r logf round delta i no a da dr) (hd : drawsOf dr' i = drawsOf dr i) :
    EstOf v par d P r logf round delta i no a da dr' := by
  refine ⟨h.1, fun hn => ?_, h.2.2⟩
  obtain ⟨z, m, c, h1, ⟨xs, h2, h3⟩, h4⟩ := h.2.1 hn
  exact ⟨z, m, c, h1, ⟨xs, hd.trans h2, h3⟩, h4⟩

/-- the estimate of point `i` in a state -/
abbrev EstAt (v : ApEnv ℝ σ) (par : ApPar ℝ) (d : Nat) (P : List (List ℝ)) (r : List ℝ) (logf : Fl ℝ) (round : Nat) (delta : Fl ℝ)
    (i : Nat) (s : ApSt ℝ σ) : Prop :=
  EstOf v par d P r logf round delta i (s.noOps.getD i 0) (s.approx.getD i .nan) (s.pdelta.getD i .nan) s.draws

theorem EstAt.keep {logf delta : Fl ℝ} {round i j : Nat} {s s' : ApSt ℝ σ} (h : EstAt v par d P r logf round delta j s)
    (hu : Untouched i s s') (hj : j ≠ i) : EstAt v par d P r logf round delta j s' := by
  unfold EstAt
  rw [hu.ops j hj, hu.approx j hj, hu.pdelta j hj]
  exact h.congr (hu.draws j hj)

theorem over_length {i : Nat} (hi : i < P.length) {z : List ℝ} {bp : List Nat} (h : OverOf d P i z bp) :
    bp.length + 1 ≤ P.length := by
  have hn : (i :: bp).Nodup := List.nodup_cons.mpr ⟨fun hc => ((h.2 i).mp hc).2.1 rfl, h.1⟩
  have := (hn.subperm (l₂ := List.range P.length) (fun j hj => by
    rcases List.mem_cons.mp hj with rfl | hj
    · exact List.mem_range.mpr hi
    · exact List.mem_range.mpr ((h.2 j).mp hj).1)).length_le
  simpa using this

/-- The sampling of one point in a round. -/
theorem wpn_apRound (hv : ApLaw v low) (hd : 2 ≤ d) (hb : Spec.Below d P r) (hlow : AboveLow low P) (hac : Antichain d P)
    (hZ : ∀ i : Nat, i < P.length → BoxOf d P r (P.getD i []) (Z i) ∧ OverOf d P i (Z i) (B i))
    (hN : (par.useExact = true → P.length ≤ par.trivial + 1 → False) → N) {logf : Fl ℝ} {fuel : Nat} {delta : Fl ℝ} {round i : Nat}
    (hi : i < P.length) {s : ApSt ℝ σ} (hs : ApInv par d P r Z B s) :
    wpn N (apRound v par (P.map apF) logf fuel delta round i)
      (fun _ s' => ApInv par d P r Z B s' ∧ Untouched i s s' ∧ EstAt v par d P r logf round delta i s') (fun _ _ => False) s := by
  have hlen : ∀ i : Nat, i < P.length → (P.getD i []).length = d := by
    intro i hi
    rw [List.getD_eq_getElem _ _ hi]
    exact (hb.2 _ (List.getElem_mem hi)).1
  obtain ⟨hbx, hbp⟩ := hZ i hi
  unfold apRound
  rw [wpn_bind, wpn_get, wpn_bind, wpn_lift_get (by rw [hs.lops]; exact hi), wpn_bind, hs.over, get_range_map hi, wpn_lift_ok,
    wpn_bind, get_map_apF hi, wpn_lift_ok, wpn_bind, hs.boxes, get_range_map hi, wpn_lift_ok, wpn_bind, hs.vols,
    get_range_map hi, wpn_lift_ok]
  have hgd : s.noOps[i]'(by rw [hs.lops]; exact hi) = s.noOps.getD i 0 :=
    (List.getD_eq_getElem _ _ (by rw [hs.lops]; exact hi)).symm
  rw [hgd]
  have hhd : ((P.map apF).headD []).length = d := by
    cases P with
    | nil => simp at hi
    | cons p l => rw [List.map_cons, List.headD_cons, apF_length]; exact (hb.2 p List.mem_cons_self).1
  dsimp only
  rw [hhd]
  by_cases h0 : par.useExact = true ∧ s.noOps.getD i 0 = 0
  · rw [if_pos h0, wpn_pure]
    exact ⟨hs, Untouched.rfl' i s, fun h => hs.exact i hi h, fun h => absurd h0.2 h, fun _ _ => h0.2⟩
  · rw [if_neg h0]
    have hno : s.noOps.getD i 0 ≠ 0 := fun h => h0 ⟨(hs.exact i hi h).1, h⟩
    split
    · next h1 =>
      rw [wpn_bind, apExactVol_ok hv hd hb hlow hac hi hbx hbp, wpn_lift_ok]
      change (fun s' => ApInv par d P r Z B s' ∧ Untouched i s s' ∧ EstAt v par d P r logf round delta i s') _
      have a1 : i < s.approx.length := by rw [hs.lapp]; exact hi
      have a2 : i < s.pdelta.length := by rw [hs.ldel]; exact hi
      have a3 : i < s.noOps.length := by rw [hs.lops]; exact hi
      have hz : v.op.zero = .fin 0 := by rw [hv.op]; rfl
      dsimp only
      rw [hz]
      refine ⟨⟨hs.boxes, hs.vols, hs.over, hs.lsam, hs.lsuc, by simpa using hs.lops, by simpa using hs.lapp,
        by simpa using hs.ldel, hs.samp, fun j hj => ?_⟩, ⟨rfl, rfl, rfl, fun j hj => getD_set_ne hj,
          fun j hj => getD_set_ne hj, fun j hj => getD_set_ne hj, fun _ _ => rfl⟩, ?_⟩
      · dsimp only
        by_cases hji : j = i
        · subst hji
          rw [getD_set_self a1, getD_set_self a2]
          exact fun _ => ⟨h1.1, rfl, rfl⟩
        · rw [getD_set_ne hji, getD_set_ne hji, getD_set_ne hji]
          exact hs.exact j hj
      · unfold EstAt
        dsimp only
        rw [getD_set_self a1, getD_set_self a2, getD_set_self a3]
        exact ⟨fun _ => ⟨h1.1, rfl, rfl⟩, fun h => absurd rfl h, fun _ _ => rfl⟩
    · next h1 =>
      have hbig : par.useExact = true → P.length ≤ par.trivial + 1 → False := by
        intro hu hle
        have := over_length hi hbp
        exact h1 ⟨hu, Or.inl (by omega)⟩
      rw [wpn_bind]
      refine (wpn_apDrawLoop hv hac hlen hZ (hN hbig) hi _ fuel hs hno).mono (fun _ s1 h2 => ?_) (fun _ _ h => h)
      obtain ⟨hs1, hu1, hno1, hen⟩ := h2
      change (fun s' => ApInv par d P r Z B s' ∧ Untouched i s s' ∧ EstAt v par d P r logf round delta i s')
        (apEstimate v par round i logf s1)
      unfold apEstimate
      dsimp only
      have a1 : i < s1.approx.length := by rw [hs1.lapp]; exact hi
      have a2 : i < s1.pdelta.length := by rw [hs1.ldel]; exact hi
      refine ⟨⟨hs1.boxes, hs1.vols, hs1.over, hs1.lsam, hs1.lsuc, hs1.lops, by simpa using hs1.lapp,
        by simpa using hs1.ldel, hs1.samp, fun j hj hj0 => ?_⟩, hu1.trans ⟨rfl, rfl, rfl, fun j hj => rfl,
          fun j hj => getD_set_ne hj, fun j hj => getD_set_ne hj, fun _ _ => rfl⟩, ?_⟩
      · dsimp only at hj0 ⊢
        have hji : j ≠ i := fun h => hno1 (h ▸ hj0)
        rw [getD_set_ne hji, getD_set_ne hji]
        exact hs1.exact j hj hj0
      · unfold EstAt
        dsimp only
        rw [getD_set_self a1, getD_set_self a2]
        refine ⟨fun h => absurd h hno1, fun _ => ⟨Z i, _, _, hbx, hs1.samp i hi, ?_, ?_, ?_⟩, fun hu hle => (hbig hu hle).elim⟩
        · rw [hv.nat, hv.nat, hv.op, hs1.vols, getD_range_map' hi, hvol_single_range hbx.low]; rfl
        · unfold apPointDelta apFactor
          rw [hv.nat, hv.nat, hv.op, hs1.vols, getD_range_map' hi, hvol_single_range hbx.low]; rfl
        · unfold apRequired apFactor at hen
          rw [hv.nat, hv.op, hvol_single_range hbx.low] at hen
          exact hen

end

end Verif.Props
