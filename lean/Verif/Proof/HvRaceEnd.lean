import Verif.Proof.HvRace

/-!
# The rounds of the race of `bf_approx`
-/

set_option autoImplicit false

namespace Verif.Props

open Verif Verif.Spec Verif.Hv Run

/-- `c` is a strictly better contribution than `c'` -/
def ApBeats (kind : ApKind) (c c' : ℝ) : Prop :=
  match kind with
  | .least => c < c'
  | .greatest => c' < c

/-- `c` is, up to the factor `1 + eps`, at least as good a contribution as `c'` -/
def Wins (kind : ApKind) (eps c c' : ℝ) : Prop :=
  match kind with
  | .least => c ≤ (1 + eps) * c'
  | .greatest => c' ≤ (1 + eps) * c

/-- the contribution is within `da` of `a` -/
def CloseTo (c : ℝ) (a da : Fl ℝ) : Prop := ∃ x y : ℝ, a = .fin x ∧ da = .fin y ∧ |c - x| ≤ y

theorem wpn_list {σ : Type} {N : Prop} {f : Unit → Nat → Run σ Unit} {E : Exn → σ → Prop} (Inv : List Nat → σ → Prop)
    (l done : List Nat) (s : σ) (h0 : Inv done s)
    (hs : ∀ (dn : List Nat) (i : Nat) (s : σ), i ∈ l → Inv dn s → wpn N (f () i) (fun _ s' => Inv (i :: dn) s') E s) :
    wpn N (l.foldlM f ()) (fun _ s' => ∃ dn, (∀ i ∈ l, i ∈ dn) ∧ (∀ i ∈ done, i ∈ dn) ∧ Inv dn s') E s := by
  induction l generalizing done s with
  | nil => exact ⟨done, fun i hi => by simp at hi, fun _ h => h, h0⟩
  | cons i l ih =>
    rw [List.foldlM_cons, wpn_bind]
    refine (hs done i s List.mem_cons_self h0).mono (fun _ s1 h1 => ?_) (fun _ _ h => h)
    refine (ih (i :: done) s1 h1 (fun dn j s hj => hs dn j s (List.mem_cons_of_mem _ hj))).mono
      (fun _ s2 ⟨dn, h2, h3, h4⟩ => ⟨dn, fun j hj => ?_, fun j hj => h3 j (List.mem_cons_of_mem _ hj), h4⟩) (fun _ _ h => h)
    rcases List.mem_cons.mp hj with rfl | hj
    · exact h3 j List.mem_cons_self
    · exact h2 j hj

section
variable {σ : Type} {kind : ApKind} {C : Nat → ℝ} {s : ApSt ℝ σ}

theorem pick_mem_aux (l : List Nat) (e : Nat) :
    l.foldl (fun ec i => if apBetter kind (s.approx.getD i .nan) (s.approx.getD ec .nan) then i else ec) e ∈ e :: l := by
  induction l generalizing e with
  | nil => simp
  | cons i l ih =>
    rw [List.foldl_cons]
    have := ih (if apBetter kind (s.approx.getD i .nan) (s.approx.getD e .nan) = true then i else e)
    split at this
    · next h => rw [if_pos h]; exact List.mem_cons_of_mem _ this
    · next h =>
      rw [if_neg h]
      rcases List.mem_cons.mp this with h1 | h1
      · rw [h1]; exact List.mem_cons_self
      · exact List.mem_cons_of_mem _ (List.mem_cons_of_mem _ h1)

theorem pick_mem (he : s.ec ∈ s.active) : apPick kind s ∈ s.active := by
  rcases List.mem_cons.mp (pick_mem_aux (kind := kind) (s := s) s.active s.ec) with h | h
  · unfold apPick; rw [h]; exact he
  · exact h

/-- with exact values the best one is picked -/
theorem pick_best_aux (l : List Nat) (e : Nat) (hl : ∀ i ∈ e :: l, s.approx.getD i .nan = .fin (C i)) :
    ∀ i ∈ e :: l, ¬ ApBeats kind (C i)
      (C (l.foldl (fun ec i => if apBetter kind (s.approx.getD i .nan) (s.approx.getD ec .nan) then i else ec) e)) := by
  induction l generalizing e with
  | nil =>
    intro i hi
    rw [List.mem_singleton.mp hi, List.foldl_nil]
    cases kind <;> exact lt_irrefl _
  | cons j l ih =>
    rw [List.foldl_cons]
    have hb : apBetter kind (s.approx.getD j .nan) (s.approx.getD e .nan) = true ↔ ApBeats kind (C j) (C e) := by
      rw [hl j (by simp), hl e (by simp)]
      cases kind <;> simp [apBetter, ApBeats, Fl.gt, fl_lt_fin]
    have hsub : ∀ i ∈ (if apBetter kind (s.approx.getD j .nan) (s.approx.getD e .nan) = true then j else e) :: l,
        s.approx.getD i .nan = .fin (C i) := by
      intro i hi
      refine hl i ?_
      rcases List.mem_cons.mp hi with h | h
      · split at h <;> simp [h]
      · simp [h]
    have h1 := ih _ hsub
    intro i hi
    have h2 := h1 _ List.mem_cons_self
    have tr : ∀ a b c : ℝ, ¬ ApBeats kind a b → ¬ ApBeats kind b c → ¬ ApBeats kind a c := by
      intro a b c
      cases kind <;> simp only [ApBeats, not_lt]
      · exact fun h h' => le_trans h' h
      · exact fun h h' => le_trans h h'
    have as : ∀ a b : ℝ, ApBeats kind a b → ¬ ApBeats kind b a := by
      intro a b
      cases kind <;> simp only [ApBeats, not_lt] <;> exact fun h => h.le
    have rf : ∀ a : ℝ, ¬ ApBeats kind a a := fun a => by cases kind <;> exact lt_irrefl _
    rcases List.mem_cons.mp hi with rfl | hi
    · refine tr _ _ _ ?_ h2
      split
      · next hc => exact as _ _ (hb.mp hc)
      · exact rf _
    · rcases List.mem_cons.mp hi with rfl | hi
      · refine tr _ _ _ ?_ h2
        split
        · exact rf _
        · next hc => exact fun hh => hc (hb.mpr hh)
      · exact h1 i (List.mem_cons_of_mem _ hi)

theorem pick_best (he : s.ec ∈ s.active) (hl : ∀ i ∈ s.active, s.approx.getD i .nan = .fin (C i)) :
    ∀ i ∈ s.active, ¬ ApBeats kind (C i) (C (apPick kind s)) :=
  fun i hi => pick_best_aux s.active s.ec (fun j hj => by
    rcases List.mem_cons.mp hj with rfl | hj
    · exact hl _ he
    · exact hl j hj) i (List.mem_cons_of_mem _ hi)

/-- A point is erased only if it is beaten. -/
theorem drop_beats {ec i : Nat} (hi : CloseTo (C i) (s.approx.getD i .nan) (s.pdelta.getD i .nan))
    (he : CloseTo (C ec) (s.approx.getD ec .nan) (s.pdelta.getD ec .nan))
    (h : apDrop (Fl.exact ℝ) kind s ec i = true) : ApBeats kind (C ec) (C i) := by
  obtain ⟨x, y, h1, h2, h3⟩ := hi
  obtain ⟨x', y', h4, h5, h6⟩ := he
  unfold apDrop apErase at h
  rw [h1, h2, h4, h5, Bool.and_eq_true] at h
  have h := h.2
  rw [abs_le] at h3 h6
  cases kind
  · change Fl.lt (Fl.fin (x' + y')) (Fl.fin (x + -y)) = true at h
    rw [fl_lt_fin, decide_eq_true_eq] at h
    change C ec < C i
    linarith
  · change Fl.lt (Fl.fin (x + y)) (Fl.fin (x' + -y')) = true at h
    rw [fl_lt_fin, decide_eq_true_eq] at h
    change C i < C ec
    linarith

/-- If the ratio of the end condition is accepted, the extreme contributor wins against the point. -/
theorem end_wins {par : ApPar ℝ} {eps : ℝ} (heps : par.eps = .fin eps) (he0 : 0 ≤ eps) {ec i : Nat}
    (hCi : 0 ≤ C i) (hCe : 0 ≤ C ec)
    (hi : CloseTo (C i) (s.approx.getD i .nan) (s.pdelta.getD i .nan))
    (he : CloseTo (C ec) (s.approx.getD ec .nan) (s.pdelta.getD ec .nan))
    (h : (Fl.le (apEnd (Fl.exact ℝ) kind (s.approx.getD i .nan) (s.pdelta.getD i .nan) (s.approx.getD ec .nan) (s.pdelta.getD ec .nan))
        (Fl.exact ℝ).zero || Fl.gt (apEnd (Fl.exact ℝ) kind (s.approx.getD i .nan) (s.pdelta.getD i .nan) (s.approx.getD ec .nan)
        (s.pdelta.getD ec .nan)) ((Fl.exact ℝ).add (Fl.exact ℝ).one par.eps)) = false) : Wins kind eps (C ec) (C i) := by
  obtain ⟨x, y, h1, h2, h3⟩ := hi
  obtain ⟨x', y', h4, h5, h6⟩ := he
  rw [h1, h2, h4, h5, heps] at h
  rw [abs_le] at h3 h6
  have key : ∀ u w : ℝ, 0 ≤ u →
      (Fl.le (Fl.div (.fin u) (.fin w)) (.fin 0) || Fl.gt (Fl.div (.fin u) (.fin w)) (.fin (1 + eps))) = false →
      u = 0 ∨ (0 < w ∧ u ≤ (1 + eps) * w) := by
    intro u w hu hk
    rw [Bool.or_eq_false_iff] at hk
    obtain ⟨k1, k2⟩ := hk
    by_cases hw : w = 0
    · subst hw
      by_cases hu0 : u = 0
      · exact Or.inl hu0
      · exfalso
        have hp : 0 < u := lt_of_le_of_ne hu (Ne.symm hu0)
        have : Fl.div (.fin u) (.fin 0) = (Fl.pinf : Fl ℝ) := by simp [Fl.div, hu0, hp]
        rw [this] at k2
        simp [Fl.gt, Fl.lt] at k2
    · have hdiv : Fl.div (.fin u) (.fin w) = (Fl.fin (u / w) : Fl ℝ) := by simp [Fl.div, hw]
      rw [hdiv, fl_le_fin, decide_eq_false_iff_not, not_le] at k1
      rw [hdiv] at k2
      change Fl.lt (Fl.fin (1 + eps)) (Fl.fin (u / w)) = false at k2
      rw [fl_lt_fin, decide_eq_false_iff_not, not_lt] at k2
      have hup : u ≠ 0 := fun hc => by rw [hc, zero_div] at k1; exact lt_irrefl _ k1
      have hpos : 0 < u := lt_of_le_of_ne hu (Ne.symm hup)
      have hwp : 0 < w := by
        by_contra hc
        have : u / w ≤ 0 := div_nonpos_of_nonneg_of_nonpos hu (not_lt.mp hc)
        linarith
      exact Or.inr ⟨hwp, (div_le_iff₀ hwp).mp k2⟩
  cases kind
  · change (Fl.le (Fl.div (.fin (x' + y')) (.fin (x + -y))) (.fin 0) ||
      Fl.gt (Fl.div (.fin (x' + y')) (.fin (x + -y))) (.fin (1 + eps))) = false at h
    change C ec ≤ (1 + eps) * C i
    rcases key _ _ (by linarith) h with hz | ⟨hw, hle⟩
    · have : C ec ≤ 0 := by linarith
      exact le_trans this (mul_nonneg (by linarith) hCi)
    · have : (1 + eps) * (x + -y) ≤ (1 + eps) * C i := mul_le_mul_of_nonneg_left (by linarith) (by linarith)
      linarith
  · change (Fl.le (Fl.div (.fin (x + y)) (.fin (x' + -y'))) (.fin 0) ||
      Fl.gt (Fl.div (.fin (x + y)) (.fin (x' + -y'))) (.fin (1 + eps))) = false at h
    change C i ≤ (1 + eps) * C ec
    rcases key _ _ (by linarith) h with hz | ⟨hw, hle⟩
    · have : C i ≤ 0 := by linarith
      exact le_trans this (mul_nonneg (by linarith) hCe)
    · have : (1 + eps) * (x' + -y') ≤ (1 + eps) * C ec := mul_le_mul_of_nonneg_left (by linarith) (by linarith)
      linarith

theorem settle_active {round i : Nat} : i ∈ (apSettle (Fl.exact ℝ) kind round s).active ↔
    i ∈ s.active ∧ apDrop (Fl.exact ℝ) kind s (apPick kind s) i = false := by
  unfold apSettle
  dsimp only
  rw [List.mem_filter, Bool.not_eq_true']

theorem settle_ec {round : Nat} (he : s.ec ∈ s.active) :
    (apSettle (Fl.exact ℝ) kind round s).ec ∈ (apSettle (Fl.exact ℝ) kind round s).active := by
  rw [settle_active]
  refine ⟨pick_mem he, ?_⟩
  unfold apDrop
  change (decide (apPick kind s ≠ apPick kind s) && _) = false
  simp

theorem stop_wins {par : ApPar ℝ} {eps : ℝ} (heps : par.eps = .fin eps) (he0 : 0 ≤ eps) (hC : ∀ i, 0 ≤ C i) {round : Nat}
    (he : s.ec ∈ s.active) (hcl : ∀ i ∈ s.active, CloseTo (C i) (s.approx.getD i .nan) (s.pdelta.getD i .nan))
    (h : apStop (Fl.exact ℝ) par kind (apSettle (Fl.exact ℝ) kind round s) = true) :
    ∀ i ∈ (apSettle (Fl.exact ℝ) kind round s).active, Wins kind eps (C (apPick kind s)) (C i) := by
  have hself : Wins kind eps (C (apPick kind s)) (C (apPick kind s)) := by
    have := hC (apPick kind s)
    have h2 : 0 ≤ eps * C (apPick kind s) := mul_nonneg he0 this
    cases kind <;> simp only [Wins] <;> linarith
  intro i hi
  by_cases hie : i = apPick kind s
  · rw [hie]; exact hself
  unfold apStop at h
  split at h
  · next hlen =>
    exfalso
    have hmem := settle_ec (kind := kind) (round := round) he
    generalize hl : (apSettle (Fl.exact ℝ) kind round s).active = l at hlen hi hmem
    have hec : (apSettle (Fl.exact ℝ) kind round s).ec = apPick kind s := rfl
    rw [hec] at hmem
    match l, hlen, hi, hmem with
    | [a], _, hi, hmem =>
      rw [List.mem_singleton] at hi hmem
      exact hie (hi.trans hmem.symm)
  · rw [List.all_eq_true] at h
    have h1 := h i hi
    rw [if_neg (show ¬ i = (apSettle (Fl.exact ℝ) kind round s).ec from hie), Bool.not_eq_true'] at h1
    exact end_wins heps he0 (hC i) (hC _) (hcl i (settle_active.mp hi).1) (hcl _ (pick_mem he)) h1

/-- With exact values the race ends. -/
theorem stop_exact {par : ApPar ℝ} {eps : ℝ} (heps : par.eps = .fin eps) (he0 : 0 ≤ eps) (hC : ∀ i, 0 ≤ C i) {round : Nat}
    (he : s.ec ∈ s.active) (hcl : ∀ i ∈ s.active, s.approx.getD i .nan = .fin (C i) ∧ s.pdelta.getD i .nan = .fin 0) :
    apStop (Fl.exact ℝ) par kind (apSettle (Fl.exact ℝ) kind round s) = true := by
  unfold apStop
  split
  · rfl
  rw [List.all_eq_true]
  intro i hi
  by_cases hie : i = (apSettle (Fl.exact ℝ) kind round s).ec
  · rw [if_pos hie]
  rw [if_neg hie]
  obtain ⟨hi1, hi2⟩ := settle_active.mp hi
  have hie' : i ≠ apPick kind s := hie
  obtain ⟨a1, a2⟩ := hcl i hi1
  obtain ⟨b1, b2⟩ := hcl _ (pick_mem (kind := kind) he)
  have hbest := pick_best (kind := kind) he (fun j hj => (hcl j hj).1) i hi1
  unfold apDrop at hi2
  rw [a1, a2, b1, b2] at hi2
  simp only [hie', ne_eq, not_false_eq_true, decide_true, Bool.true_and] at hi2
  change (!(Fl.le (apEnd (Fl.exact ℝ) kind (s.approx.getD i .nan) (s.pdelta.getD i .nan) (s.approx.getD (apPick kind s) .nan)
    (s.pdelta.getD (apPick kind s) .nan)) (.fin 0) || Fl.gt (apEnd (Fl.exact ℝ) kind (s.approx.getD i .nan)
    (s.pdelta.getD i .nan) (s.approx.getD (apPick kind s) .nan) (s.pdelta.getD (apPick kind s) .nan))
    ((Fl.exact ℝ).add (Fl.exact ℝ).one par.eps))) = true
  rw [a1, a2, b1, b2, heps]
  have heq : C i = C (apPick kind s) := by
    cases kind
    · simp only [ApBeats, not_lt] at hbest
      change Fl.lt (Fl.fin (C (apPick .least s) + 0)) (Fl.fin (C i + -0)) = false at hi2
      rw [fl_lt_fin, decide_eq_false_iff_not] at hi2
      linarith
    · simp only [ApBeats, not_lt] at hbest
      change Fl.lt (Fl.fin (C i + 0)) (Fl.fin (C (apPick .greatest s) + -0)) = false at hi2
      rw [fl_lt_fin, decide_eq_false_iff_not] at hi2
      linarith
  have hend : apEnd (Fl.exact ℝ) kind (Fl.fin (C i)) (Fl.fin 0) (Fl.fin (C (apPick kind s))) (Fl.fin 0) =
      Fl.div (.fin (C i)) (.fin (C i)) := by
    rw [← heq]
    cases kind
    · change Fl.div (Fl.fin (C i + 0)) (Fl.fin (C i + -0)) = _
      rw [add_zero, neg_zero, add_zero]
    · change Fl.div (Fl.fin (C i + 0)) (Fl.fin (C i + -0)) = _
      rw [add_zero, neg_zero, add_zero]
  rw [hend]
  by_cases h0 : C i = 0
  · rw [h0]
    have : Fl.div (Fl.fin 0) (Fl.fin 0) = (Fl.nan : Fl ℝ) := by simp [Fl.div]
    rw [this]
    change (!(Fl.le (Fl.nan : Fl ℝ) (.fin 0) || Fl.lt (Fl.fin (1 + eps)) Fl.nan)) = true
    simp [Fl.le, Fl.eq_nan_left, Fl.lt_nan_left, Fl.lt_nan_right]
  · have : Fl.div (Fl.fin (C i)) (Fl.fin (C i)) = (Fl.fin 1 : Fl ℝ) := by simp [Fl.div, h0]
    rw [this]
    change (!(Fl.le (Fl.fin 1) (Fl.fin 0) || Fl.lt (Fl.fin (1 + eps)) (Fl.fin 1))) = true
    rw [fl_le_fin, fl_lt_fin]
    simp [he0]

end

/-! ## The whole race -/

section
variable {σ : Type} {v : ApEnv ℝ σ} {low : ℝ} {par : ApPar ℝ} {kind : ApKind} {d : Nat} {P : List (List ℝ)} {r : List ℝ}
  {Z : Nat → List ℝ} {B : Nat → List Nat} {N : Prop}

/-- Every estimate of a round is what `EstOf` says; the half width required is divided by the same factor from round to
round and that of one point, the extreme contributor so far, is smaller. -/
def EstRec (v : ApEnv ℝ σ) (par : ApPar ℝ) (d : Nat) (P : List (List ℝ)) (r : List ℝ) (logf rd : Fl ℝ) (c : ApRec ℝ) : Prop :=
  ∃ e ∈ c.active, ∀ i ∈ c.active, i < P.length ∧
    EstOf v par d P r logf c.round
      (if i = e then Fl.mul par.alpha ((fun x => Fl.mul x par.mult)^[c.round] rd) else (fun x => Fl.mul x par.mult)^[c.round] rd) i (c.noOps.getD i 0) (c.approx.getD i .nan) (c.pdelta.getD i .nan) c.draws

/-- In this round every estimate obtained by sampling is within its half width of the contribution. -/
def CloseRec (d : Nat) (P : List (List ℝ)) (r : List ℝ) (c : ApRec ℝ) : Prop :=
  ∀ i ∈ c.active, c.noOps.getD i 0 ≠ 0 → CloseTo (exclVol d P r i) (c.approx.getD i .nan) (c.pdelta.getD i .nan)

/-- The invariant between rounds. -/
structure RaceInv (v : ApEnv ℝ σ) (par : ApPar ℝ) (kind : ApKind) (d : Nat) (P : List (List ℝ)) (r : List ℝ)
    (Z : Nat → List ℝ) (B : Nat → List Nat) (logf rd : Fl ℝ) (s : ApSt ℝ σ) : Prop where
  inv : ApInv par d P r Z B s
  ec : s.ec ∈ s.active
  lt : ∀ i ∈ s.active, i < P.length
  est : ∀ c ∈ s.rounds, EstRec v par d P r logf rd c
  num : s.rounds.map (·.round) = List.range' 1 s.rounds.length
  out : (∀ c ∈ s.rounds, CloseRec d P r c) → ∀ i : Nat, i < P.length → i ∉ s.active →
    ∃ j ∈ s.active, ApBeats kind (exclVol d P r j) (exclVol d P r i)

/-- What a race that ends with `i` gives. -/
def RaceEnd (v : ApEnv ℝ σ) (par : ApPar ℝ) (kind : ApKind) (d : Nat) (P : List (List ℝ)) (r : List ℝ) (eps : ℝ) (logf rd : Fl ℝ)
    (i : Nat) (s : ApSt ℝ σ) : Prop :=
  i < P.length ∧ s.rounds.map (·.round) = List.range' 1 s.rounds.length ∧ (∀ c ∈ s.rounds, EstRec v par d P r logf rd c) ∧
  ((∀ c ∈ s.rounds, CloseRec d P r c) → ∀ j : Nat, j < P.length → Wins kind eps (exclVol d P r i) (exclVol d P r j)) ∧
  (par.useExact = true → P.length ≤ par.trivial + 1 → ∀ j : Nat, j < P.length → ¬ ApBeats kind (exclVol d P r j) (exclVol d P r i))

theorem apRace_ok (hv : ApLaw v low) (hd : 2 ≤ d) (hb : Spec.Below d P r) (hlow : AboveLow low P) (hac : Antichain d P)
    (hZ : ∀ i : Nat, i < P.length → BoxOf d P r (P.getD i []) (Z i) ∧ OverOf d P i (Z i) (B i))
    (hN : (par.useExact = true → P.length ≤ par.trivial + 1 → False) → N) {eps : ℝ} (heps : par.eps = .fin eps) (he0 : 0 ≤ eps)
    {logf rd0 : Fl ℝ} {fuelS : Nat} (fuel : Nat) (hf : ¬ N → par.useExact = true → P.length ≤ par.trivial + 1 → 1 ≤ fuel) (rd : Fl ℝ) (round : Nat)
    (hrd0 : rd = (fun x => Fl.mul x par.mult)^[round] rd0) {s : ApSt ℝ σ} (hrn : s.rounds.length = round) (hs : RaceInv v par kind d P r Z B logf rd0 s)
    (hall : par.useExact = true → P.length ≤ par.trivial + 1 → ∀ i : Nat, i < P.length → i ∈ s.active) :
    wpn N (apRace v par kind (P.map apF) logf fuelS fuel rd round) (RaceEnd v par kind d P r eps logf rd0) (fun _ _ => False) s := by
  induction fuel generalizing s rd round with
  | zero =>
    by_contra hc
    exact hc (hN (fun h1 h2 => by have := hf hc h1 h2; omega))
  | succ k ih =>
    unfold apRace
    dsimp only
    have hrd1 : v.op.mul rd par.mult = (fun x => Fl.mul x par.mult)^[round + 1] rd0 := by
      rw [Function.iterate_succ_apply', ← hrd0, hv.op]; rfl
    rw [hrd1]
    have hal : v.op.mul par.alpha ((fun x => Fl.mul x par.mult)^[round + 1] rd0) =
        Fl.mul par.alpha ((fun x => Fl.mul x par.mult)^[round + 1] rd0) := by rw [hv.op]; rfl
    rw [hal]
    rw [wpn_bind, wpn_get, wpn_bind]
    refine (wpn_list (fun dn t => ApInv par d P r Z B t ∧ t.active = s.active ∧ t.ec = s.ec ∧ t.rounds = s.rounds ∧
        ∀ i ∈ dn, EstAt v par d P r logf (round + 1) ((fun x => Fl.mul x par.mult)^[round + 1] rd0) i t) s.active [] s
      ⟨hs.inv, rfl, rfl, rfl, fun i hi => by simp at hi⟩ ?_).mono ?_ (fun _ _ h => h)
    · rintro dn i t hi ⟨h1, h2, h3, h4, h5⟩
      refine (wpn_apRound hv hd hb hlow hac hZ hN (hs.lt i hi) h1).mono (fun _ t' ⟨g1, g2, g3⟩ => ?_) (fun _ _ h => h)
      refine ⟨g1, g2.active.trans h2, g2.ec.trans h3, g2.rounds.trans h4, fun j hj => ?_⟩
      by_cases hji : j = i
      · rw [hji]; exact g3
      · exact (h5 j ((List.mem_cons.mp hj).resolve_left hji)).keep g2 hji
    rintro _ t ⟨dn, hdn, -, h1, h2, h3, h4, h5⟩
    rw [wpn_bind]
    refine (wpn_apRound hv hd hb hlow hac hZ hN (hs.lt _ hs.ec) h1).mono (fun _ u ⟨g1, g2, g3⟩ => ?_) (fun _ _ h => h)
    have hact : u.active = s.active := g2.active.trans h2
    have hec : u.ec ∈ u.active := by rw [hact, g2.ec, h3]; exact hs.ec
    have hrd : u.rounds = s.rounds := g2.rounds.trans h4
    have hest : ∀ i ∈ u.active, EstAt v par d P r logf (round + 1)
        (if i = s.ec then Fl.mul par.alpha ((fun x => Fl.mul x par.mult)^[round + 1] rd0)
          else (fun x => Fl.mul x par.mult)^[round + 1] rd0) i u := by
      intro i hi
      by_cases hie : i = s.ec
      · rw [if_pos hie, hie]; exact g3
      · rw [if_neg hie]; exact (h5 i (hdn i (hact ▸ hi))).keep g2 hie
    have hlt : ∀ i ∈ u.active, i < P.length := fun i hi => hs.lt i (hact ▸ hi)
    rw [wpn_bind]
    change (fun t => wpn N (Run.get >>= fun t => if apStop v.op par kind t = true then pure t.ec
        else apRace v par kind (P.map apF) logf fuelS k ((fun x => Fl.mul x par.mult)^[round + 1] rd0) (round + 1)) (RaceEnd v par kind d P r eps logf rd0)
      (fun _ _ => False) t) (apSettle v.op kind (round + 1) u)
    dsimp only
    rw [wpn_bind, wpn_get, hv.op]
    have hrec : (apSettle (Fl.exact ℝ) kind (round + 1) u).rounds =
        s.rounds ++ [⟨u.active, u.approx, u.pdelta, u.noOps, u.draws, round + 1⟩] := by
      unfold apSettle
      dsimp only
      rw [hrd]
    have hnum : (apSettle (Fl.exact ℝ) kind (round + 1) u).rounds.map (·.round) =
        List.range' 1 (apSettle (Fl.exact ℝ) kind (round + 1) u).rounds.length := by
      rw [hrec, List.map_append, hs.num, List.length_append, List.length_singleton, List.range'_concat, hrn]
      simp [Nat.add_comm]
    have hestAll : ∀ c ∈ (apSettle (Fl.exact ℝ) kind (round + 1) u).rounds, EstRec v par d P r logf rd0 c := by
      intro c hc
      rw [hrec] at hc
      rcases List.mem_append.mp hc with hc | hc
      · exact hs.est c hc
      · rw [List.mem_singleton.mp hc]
        exact ⟨s.ec, by rw [hact]; exact hs.ec, fun i hi => ⟨hlt i hi, hest i hi⟩⟩
    have hclose : (∀ c ∈ (apSettle (Fl.exact ℝ) kind (round + 1) u).rounds, CloseRec d P r c) →
        (∀ c ∈ s.rounds, CloseRec d P r c) ∧
        ∀ i ∈ u.active, CloseTo (exclVol d P r i) (u.approx.getD i .nan) (u.pdelta.getD i .nan) := by
      intro h
      rw [hrec] at h
      refine ⟨fun c hc => h c (List.mem_append_left _ hc), fun i hi => ?_⟩
      have h1 := h _ (List.mem_append_right _ (List.mem_singleton.mpr rfl)) i hi
      by_cases hno : u.noOps.getD i 0 = 0
      · obtain ⟨-, e1, e2⟩ := (hest i hi).1 hno
        exact ⟨_, _, e1, e2, by simp⟩
      · exact h1 hno
    have hout : (∀ c ∈ (apSettle (Fl.exact ℝ) kind (round + 1) u).rounds, CloseRec d P r c) → ∀ i : Nat, i < P.length →
        i ∉ (apSettle (Fl.exact ℝ) kind (round + 1) u).active →
        ∃ j ∈ (apSettle (Fl.exact ℝ) kind (round + 1) u).active, ApBeats kind (exclVol d P r j) (exclVol d P r i) := by
      intro hc i hi hni
      obtain ⟨c1, c2⟩ := hclose hc
      have hdrop : ∀ j ∈ u.active, j ∉ (apSettle (Fl.exact ℝ) kind (round + 1) u).active →
          ApBeats kind (exclVol d P r (apPick kind u)) (exclVol d P r j) := by
        intro j hj hnj
        have : apDrop (Fl.exact ℝ) kind u (apPick kind u) j = true := by
          by_contra hcon
          exact hnj (settle_active.mpr ⟨hj, by simpa using hcon⟩)
        exact drop_beats (C := exclVol d P r) (c2 j hj) (c2 _ (pick_mem hec)) this
      have htr : ∀ a b c : ℝ, ApBeats kind a b → ApBeats kind b c → ApBeats kind a c := by
        intro a b c
        cases kind <;> simp only [ApBeats]
        · exact lt_trans
        · exact fun h h' => lt_trans h' h
      by_cases hia : i ∈ u.active
      · exact ⟨_, settle_ec hec, hdrop i hia hni⟩
      · obtain ⟨j, hj, hbj⟩ := hs.out c1 i hi (hact ▸ hia)
        rw [← hact] at hj
        by_cases hjm : j ∈ (apSettle (Fl.exact ℝ) kind (round + 1) u).active
        · exact ⟨j, hjm, hbj⟩
        · exact ⟨_, settle_ec hec, htr _ _ _ (hdrop j hj hjm) hbj⟩
    have hC : ∀ i, 0 ≤ exclVol d P r i := fun i => exclVol_nonneg
    have hsmall : par.useExact = true → P.length ≤ par.trivial + 1 → ∀ i ∈ u.active,
        u.approx.getD i .nan = .fin (exclVol d P r i) ∧ u.pdelta.getD i .nan = .fin 0 :=
      fun a1 a2 i hi => ((hest i hi).1 ((hest i hi).2.2 a1 a2)).2
    split
    · next hstop =>
      rw [wpn_pure]
      refine ⟨hlt _ (pick_mem hec), hnum, hestAll, fun hc j hj => ?_, fun a1 a2 j hj => ?_⟩
      · have hw := stop_wins heps he0 hC hec (hclose hc).2 hstop
        by_cases hja : j ∈ (apSettle (Fl.exact ℝ) kind (round + 1) u).active
        · exact hw j hja
        · obtain ⟨m, hm, hbm⟩ := hout hc j hj hja
          have := hw m hm
          change Wins kind eps (exclVol d P r (apPick kind u)) (exclVol d P r j)
          revert this hbm
          cases kind <;> simp only [Wins, ApBeats]
          · intro h1 h2
            have : (1 + eps) * exclVol d P r m ≤ (1 + eps) * exclVol d P r j := mul_le_mul_of_nonneg_left h1.le (by linarith)
            linarith
          · intro h1 h2
            linarith
      · exact pick_best hec (fun i hi => (hsmall a1 a2 i hi).1) j (hact ▸ hall a1 a2 j hj)
    · next hstop =>
      have hbig : par.useExact = true → P.length ≤ par.trivial + 1 → False := fun a1 a2 =>
        hstop (stop_exact heps he0 hC hec (hsmall a1 a2))
      refine ih (fun _ a1 a2 => (hbig a1 a2).elim) _ _ rfl (by rw [hrec, List.length_append, hrn]; rfl)
        ⟨?_, settle_ec hec, fun i hi => hlt i (settle_active.mp hi).1, hestAll, hnum, hout⟩
        (fun a1 a2 => (hbig a1 a2).elim)
      exact ⟨g1.boxes, g1.vols, g1.over, g1.lsam, g1.lsuc, g1.lops, g1.lapp, g1.ldel, g1.samp, g1.exact⟩

/-- `approx_extreme_contributor`. -/
theorem apExtreme_ok (hv : ApLaw v low) (hd : 2 ≤ d) (hne : P ≠ []) (hb : Spec.Below d P r) (hlow : AboveLow low P)
    (hac : kind = .greatest → Antichain d P)
    (hN : (par.useExact = true → P.length ≤ par.trivial + 1 → False) → N) {eps : ℝ} (heps : par.eps = .fin eps) (he0 : 0 ≤ eps)
    {fuelS fuel : Nat} (hf : ¬ N → par.useExact = true → P.length ≤ par.trivial + 1 → 1 ≤ fuel) (s : ApSt ℝ σ) :
    wpn N (apExtreme v par kind (P.map apF) (apF r) fuel fuelS)
      (fun i s' => ∃ R : ℝ, (s'.rounds ≠ [] → ∃ Z : Nat → List ℝ, (∀ i : Nat, i < P.length → BoxOf d P r (P.getD i []) (Z i) ∧
          boxVolume d (P.getD i []) (Z i) ≤ R) ∧ (R = 0 ∨ ∃ i : Nat, i < P.length ∧ R = boxVolume d (P.getD i []) (Z i))) ∧
        RaceEnd v par kind d P r eps (apLogFactor v par P.length) (Fl.mul (.fin R) par.coeff) i s')
      (fun _ _ => False) s := by
  have hdim : dimOk (apF r).length (P.map apF) (apF r) = true := by
    unfold dimOk
    rw [apF_length, Bool.and_eq_true, List.all_eq_true]
    refine ⟨by simp, fun q hq => ?_⟩
    obtain ⟨p, hp, rfl⟩ := List.mem_map.mp hq
    rw [apF_length, (hb.2 p hp).1, hb.1]
    simp
  have hprep := apPrepare_ok (v := v) (kind := kind) hv.op hb
  have h0 : 0 < P.length := List.length_pos_of_ne_nil hne
  unfold wpn apExtreme
  rw [if_pos hdim]
  cases hw : apPrepare v kind (P.map apF) (apF r) with
  | error i =>
    rw [hw] at hprep
    obtain ⟨hk, hi, j, hj, hji, hwd⟩ := hprep
    have hz := exclVol_zero (r := r) hi hj hji hwd
    subst hk
    dsimp only
    refine ⟨0, fun h => absurd rfl h, hi, rfl, fun c hc => by simp at hc, fun _ m _ => ?_, fun _ _ m _ => ?_⟩
    · change exclVol d P r i ≤ (1 + eps) * exclVol d P r m
      rw [hz]
      exact mul_nonneg (by linarith) exclVol_nonneg
    · change ¬ exclVol d P r m < exclVol d P r i
      rw [hz, not_lt]
      exact exclVol_nonneg
  | ok w =>
    rw [hw] at hprep
    obtain ⟨hl, Z, B, hZ, w1, w2, w3, R, hR, hmax, hatt⟩ := hprep
    have hacA : Antichain d P := by
      cases kind with
      | least => exact hl rfl
      | greatest => exact hac rfl
    have hvolZ : ∀ i : Nat, i < P.length → hvol d [P.getD i []] (Z i) = boxVolume d (P.getD i []) (Z i) :=
      fun i hi => hvol_single_range (hZ i hi).1.low
    dsimp only
    have := apRace_ok (N := N) (kind := kind) (par := par) hv hd hb hlow hacA hZ hN heps he0
      (logf := apLogFactor v par P.length) (rd0 := Fl.mul (.fin R) par.coeff) (fuelS := fuelS) fuel hf
      (Fl.mul (.fin R) par.coeff) 0 rfl (s := apInit P.length v.op.zero w s.e) rfl ⟨⟨w1, w2, w3, by simp [apInit], by simp [apInit],
        by simp [apInit], by simp [apInit], by simp [apInit], fun i hi => ⟨[], by simp [apInit, drawsOf], by simp, by simp [apInit, hi],
          by simp [apInit, hi]⟩, fun i hi h => by simp [apInit, hi] at h⟩, by simp [apInit, h0],
        fun i hi => by simpa [apInit] using hi, fun c hc => by simp [apInit] at hc, rfl,
        fun _ i hi hn => absurd (by simpa [apInit] using hi) hn⟩ (fun _ _ i hi => by simpa [apInit] using hi)
    have hmul : v.op.mul w.rdelta par.coeff = Fl.mul (.fin R) par.coeff := by rw [hR, hv.op]; rfl
    rw [List.length_map, hmul]
    exact this.mono (fun i s' h => ⟨R, fun _ => ⟨Z, fun i hi => ⟨(hZ i hi).1, hvolZ i hi ▸ hmax i hi⟩,
      hatt.imp id (fun ⟨i, hi, h⟩ => ⟨i, hi, h.trans (hvolZ i hi)⟩)⟩, h⟩) (fun _ _ h => h)

end

end Verif.Props
