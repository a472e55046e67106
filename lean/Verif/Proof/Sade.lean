import Verif.Spec.Sade
import Verif.Props.Pso

/-!
# Helper lemmas for `Verif.Props.Sade`
-/

set_option autoImplicit false

namespace Verif.Props

open Verif Run Prob Pop Alg Rnd

variable {K σ : Type} [Field K] [LinearOrder K]

/-! ### Random indexes -/

theorem nodup_swap_take {l : List Nat} {n idx : Nat} (hl : n < l.length) (hi : idx ≤ n) :
    ((l.set idx l[n]).set n (l[idx]'(by omega))).take n = (l.take n).set idx l[n] := by
  rw [List.take_set_of_le (by omega), List.take_set]

/-- `k` different indexes below `NP`. -/
theorem wp_pickIdx_nodup {g : Gen K σ} {rep : K → Prop} (hg : g.Lawful rep) {NP k : Nat} (hk : k ≤ NP) {s : σ}
    {Q : List Nat → σ → Prop} {E : Exn → σ → Prop} (hq : ∀ r s', Picks NP k r → Q r s') : wp (pickIdx g NP k) Q E s := by
  unfold pickIdx
  rw [wp_bind]
  refine (wp_range (fun j (b : List Nat × List Nat) _ => b.1.length = j ∧ b.2.length = NP ∧
    (b.1 ++ b.2.take (NP - j)).Nodup ∧ ∀ i ∈ b.1 ++ b.2.take (NP - j), i < NP) k _ s
    ⟨rfl, by simp, by simp [List.nodup_range], by simp⟩ ?_).mono ?_ (fun _ _ h => h)
  · rintro j ⟨r, l⟩ s hj ⟨h1, h2, h3, h4⟩
    simp only at h1 h2 h3 h4
    unfold pickStep
    rw [wp_bind]
    refine Gen.wp_drawNat hg (by omega) (fun idx s' _ hi => ?_)
    simp only
    rw [wp_bind, wp_lift_get (by omega), wp_bind, wp_lift_get (by omega), wp_bind, wp_lift_set (by omega), wp_bind,
      wp_lift_set (by rw [List.length_set]; omega), wp_pure]
    simp only
    have hn : NP - (j + 1) = NP - 1 - j := by omega
    have hlt : NP - 1 - j < l.length := by omega
    have hperm : (l[idx]'(by omega) :: (l.take (NP - 1 - j)).set idx (l[NP - 1 - j]'hlt)).Perm (l.take (NP - j)) := by
      rw [show NP - j = NP - 1 - j + 1 by omega, List.take_succ_eq_append_getElem hlt]
      rcases Nat.lt_or_ge idx (NP - 1 - j) with hlt' | hge
      · have hlt'' : idx < (l.take (NP - 1 - j)).length := by rw [List.length_take]; omega
        have e : l[idx]'(by omega) = (l.take (NP - 1 - j))[idx] := by rw [List.getElem_take]
        rw [e]
        refine (List.Perm.trans ?_ (List.perm_append_comm (l₁ := [l[NP - 1 - j]'hlt])))
        rw [List.singleton_append]
        have h5 : (l.take (NP - 1 - j)) = (l.take (NP - 1 - j)).take idx ++ (l.take (NP - 1 - j))[idx] :: (l.take (NP - 1 - j)).drop (idx + 1) := by
          rw [List.getElem_cons_drop hlt'', List.take_append_drop]
        generalize l.take (NP - 1 - j) = t at hlt'' h5
        rw [List.set_eq_take_append_cons_drop, if_pos hlt'']
        refine List.Perm.trans ?_ (List.Perm.cons _ (List.Perm.of_eq h5.symm))
        refine (List.Perm.cons _ List.perm_middle).trans ?_
        refine (List.Perm.swap _ _ _).trans (List.Perm.cons _ ?_)
        exact List.perm_middle.symm
      · have : idx = NP - 1 - j := by omega
        subst this
        rw [List.set_eq_of_length_le (by rw [List.length_take]; omega)]
        exact (List.perm_append_comm (l₁ := [l[NP - 1 - j]'hlt]))
    refine ⟨by simp [h1], by simp [h2], ?_, ?_⟩
    · rw [hn, nodup_swap_take hlt hi, List.append_assoc, List.singleton_append]
      exact (List.Perm.nodup_iff (List.Perm.append_left r hperm)).mpr h3
    · intro i hi'
      rw [hn, nodup_swap_take hlt hi, List.append_assoc, List.singleton_append] at hi'
      exact h4 i ((List.Perm.append_left r hperm).mem_iff.mp hi')
  · rintro ⟨r, l⟩ s' ⟨h1, h2, h3, h4⟩
    exact hq _ _ ⟨h1, h3.of_append_left, fun j hj => h4 j (List.mem_append_left _ hj)⟩

/-! ### Mutation -/

theorem adGene_local (op : Fl.Ops K) (F : Fl K) (variant : Nat) (gb : List (Fl K)) (po : List (List (Fl K))) (i : Nat) (r : List Nat) :
    LocalGene (adGene op F variant gb po i r) := by
  intro a b n h
  unfold adGene
  simp only [Outcome.get, h]

theorem weighted_fin {op : Fl.Ops K} (hop : NoOverflow op) (F a b : K) :
    (∃ c, op.mul (.fin F) (op.sub (.fin a) (.fin b)) = .fin c) ∧ (∃ c, op.mul (op.sub (.fin a) (.fin b)) (.fin F) = .fin c) := by
  obtain ⟨c, h⟩ := hop.sub a b
  rw [h]
  exact ⟨hop.mul F c, hop.mul c F⟩

theorem adGene_fin {op : Fl.Ops K} (hop : NoOverflow op) {F : K} {variant dim NP : Nat} {gb : List (Fl K)}
    (hgb : gb.length = dim ∧ AllFin gb) {po : List (List (Fl K))} (hp : DonorsOk dim NP po) {i : Nat} (hi : i < NP) {r : List Nat}
    (hr : r.length = 7 ∧ ∀ i ∈ r, i < NP) : GeneOk dim (adGene op (.fin F) variant gb po i r) := by
  intro tmp n hl hn ht
  obtain ⟨t, e1⟩ := allFin_get ht (i := n) (by omega)
  obtain ⟨b, e2⟩ := allFin_get hgb.2 (i := n) (by omega)
  have hil : i < po.length := by rw [hp.1]; exact hi
  have hxi := hp.2 _ (List.getElem_mem hil)
  obtain ⟨c, ec⟩ := allFin_get hxi.2 (i := n) (by rw [hxi.1]; exact hn)
  obtain ⟨p0, e3⟩ := donor_fin hp hr.2 (k := 0) (by omega) hn
  obtain ⟨p1, e4⟩ := donor_fin hp hr.2 (k := 1) (by omega) hn
  obtain ⟨p2, e5⟩ := donor_fin hp hr.2 (k := 2) (by omega) hn
  obtain ⟨p3, e6⟩ := donor_fin hp hr.2 (k := 3) (by omega) hn
  obtain ⟨p4, e7⟩ := donor_fin hp hr.2 (k := 4) (by omega) hn
  obtain ⟨p5, e8⟩ := donor_fin hp hr.2 (k := 5) (by omega) hn
  obtain ⟨p6, e9⟩ := donor_fin hp hr.2 (k := 6) (by omega) hn
  unfold adGene
  rw [e1, Outcome.bind_ok, e2, Outcome.bind_ok, Outcome.get_of_lt hil, Outcome.bind_ok, ec, Outcome.bind_ok, e3, Outcome.bind_ok,
    e4, Outcome.bind_ok, e5, Outcome.bind_ok, e6, Outcome.bind_ok, e7, Outcome.bind_ok, e8, Outcome.bind_ok, e9, Outcome.bind_ok]
  have one : ∀ x y : K, ∀ w : Fl K, (∃ c, w = .fin c) → (∃ c, op.add (.fin x) w = .fin c) ∧ (∃ c, op.sub (.fin x) w = .fin c) := by
    rintro x y w ⟨c, rfl⟩; exact ⟨hop.add x c, hop.sub x c⟩
  have add : ∀ v w : Fl K, (∃ c, v = .fin c) → (∃ c, w = .fin c) → ∃ c, op.add v w = .fin c := by
    rintro v w ⟨a, rfl⟩ ⟨c, rfl⟩; exact hop.add a c
  have sub : ∀ v w : Fl K, (∃ c, v = .fin c) → (∃ c, w = .fin c) → ∃ c, op.sub v w = .fin c := by
    rintro v w ⟨a, rfl⟩ ⟨c, rfl⟩; exact hop.sub a c
  have L := fun a b => (weighted_fin hop F a b).1
  have R := fun a b => (weighted_fin hop F a b).2
  have fin : ∀ a : K, ∃ c, Fl.fin a = Fl.fin c := fun a => ⟨a, rfl⟩
  have ok : ∀ w : Fl K, (∃ c, w = .fin c) → ∃ c, Outcome.ok w = Outcome.ok (Fl.fin c) := by
    rintro w ⟨c, rfl⟩; exact ⟨c, rfl⟩
  repeat' split
  all_goals refine ok _ ?_
  · exact add _ _ (fin _) (L _ _)
  · exact add _ _ (fin _) (L _ _)
  · exact add _ _ (add _ _ (fin _) (L _ _)) (L _ _)
  · exact add _ _ (add _ _ (fin _) (R _ _)) (R _ _)
  · exact add _ _ (add _ _ (fin _) (R _ _)) (R _ _)
  · exact add _ _ (add _ _ (add _ _ (fin _) (R _ _)) (R _ _)) (R _ _)
  · exact add _ _ (add _ _ (add _ _ (fin _) (R _ _)) (R _ _)) (R _ _)
  · exact add _ _ (add _ _ (fin _) (R _ _)) (R _ _)
  · exact sub _ _ (add _ _ (fin _) (R _ _)) (R _ _)

/-! ### Crossover -/

section
variable [IsStrictOrderedRing K]

theorem wp_byExp {g : Gen K σ} {rep : K → Prop} (hg : g.Lawful rep) {CR : Fl K} {dim : Nat} {gene : List (Fl K) → Nat → Outcome (Fl K)}
    (hl : LocalGene gene) {tmp : List (Fl K)} (hgene : ∀ n < dim, ∃ w, gene tmp n = .ok w) (n : Nat) (hn : n < dim) {E : Exn → σ → Prop}
    (ht : tmp.length = dim) :
    ∀ (k L : Nat) (y : List (Fl K)) (u : Nat → K) (s : σ), 0 < k → L + k = dim → y.length = dim →
      (∀ j < L, FromGene gene tmp y ((n + j) % dim)) → (∀ j, L ≤ j → j < dim → y[(n + j) % dim]? = tmp[(n + j) % dim]?) →
      (∀ j < L, 0 ≤ u j ∧ u j ≤ 1) → (∀ j < L, Fl.lt (.fin (u j)) CR = true) →
      wp (expCross g CR dim gene k y ((n + L) % dim)) (fun y _ => ByExp gene CR dim tmp y) E s := by
  intro k
  induction k with
  | zero => intro _ _ _ _ h; omega
  | succ k ih =>
    intro L y u s _ hk hy h1 h2 hu hlt
    have hm : (n + L) % dim < dim := Nat.mod_lt _ (by omega)
    obtain ⟨w, hw⟩ := hgene _ hm
    have e : gene y ((n + L) % dim) = .ok w := by rw [hl y tmp _ (h2 L (le_refl _) (by omega))]; exact hw
    have h3 : ∀ j < L + 1, FromGene gene tmp (y.set ((n + L) % dim) w) ((n + j) % dim) := by
      intro j hj
      rcases Nat.lt_or_ge j L with hjL | hjL
      · obtain ⟨w', e1, e2⟩ := h1 j hjL
        exact ⟨w', e1, by rw [List.getElem?_set_ne (mod_ne hjL (by omega)).symm]; exact e2⟩
      · have : j = L := by omega
        subst this
        exact ⟨w, hw, by rw [List.getElem?_set_self (by omega)]⟩
    have h4 : ∀ j, L + 1 ≤ j → j < dim → (y.set ((n + L) % dim) w)[(n + j) % dim]? = tmp[(n + j) % dim]? := by
      intro j hj hjd
      rw [List.getElem?_set_ne (mod_ne (by omega : L < j) hjd)]
      exact h2 j (by omega) hjd
    rw [expCross, wp_bind, e, wp_lift_ok, wp_bind, wp_lift_set (by omega), wp_bind]
    refine Gen.wp_draw01 hg (fun a s' ha0 ha1 => ?_)
    have hu' : ∀ j < L + 1, 0 ≤ (fun j => if j = L then a else u j) j ∧ (fun j => if j = L then a else u j) j ≤ 1 := by
      intro j hj
      dsimp only
      split
      · exact ⟨ha0, ha1⟩
      · exact hu j (by omega)
    split
    · rename_i h
      rw [Bool.and_eq_true, decide_eq_true_eq] at h
      have := ih (L + 1) (y.set ((n + L) % dim) w) (fun j => if j = L then a else u j) s' h.2 (by omega) (by simpa using hy) h3 h4 hu' ?_
      · rwa [show (n + (L + 1)) % dim = ((n + L) % dim + 1) % dim by rw [Nat.mod_add_mod]; rfl] at this
      · intro j hj
        split
        · exact h.1
        · exact hlt j (by omega)
    · rename_i h
      refine ⟨by simpa using hy, n, L + 1, fun j => if j = L then a else u j, hn, by omega, by omega, hu', ?_, ?_, ?_⟩
      · intro j hj
        dsimp only
        rw [if_neg (by omega)]
        exact hlt j (by omega)
      · intro hd
        rw [Bool.and_eq_true, decide_eq_true_eq, not_and] at h
        simp only [Nat.add_sub_cancel, if_true]
        rw [← Bool.not_eq_true]
        exact fun h' => h h' (by omega)
      · intro j hj
        exact ⟨fun h' => h3 j h', fun h' => h4 j h' hj⟩

theorem wp_byBin {g : Gen K σ} {rep : K → Prop} (hg : g.Lawful rep) {CR : Fl K} {dim : Nat} {gene : List (Fl K) → Nat → Outcome (Fl K)}
    (hl : LocalGene gene) {tmp : List (Fl K)} (hgene : ∀ n < dim, ∃ w, gene tmp n = .ok w) (ht : tmp.length = dim) (n : Nat) (hn : n < dim)
    {E : Exn → σ → Prop} (s : σ) : wp (binCross g CR dim gene tmp n) (fun y _ => ByBin gene CR dim tmp y) E s := by
  unfold binCross
  rw [wp_bind]
  refine (wp_range (fun L (b : List (Fl K) × Nat) _ => b.2 = (n + L) % dim ∧ b.1.length = dim ∧ ∃ u : Nat → K,
    (∀ k, k < L → 0 ≤ u k ∧ u k ≤ 1) ∧
    (∀ k, k < L → (Fl.lt (.fin (u k)) CR = true ∨ k + 1 = dim → FromGene gene tmp b.1 ((n + k) % dim)) ∧
      (¬ (Fl.lt (.fin (u k)) CR = true ∨ k + 1 = dim) → b.1[(n + k) % dim]? = tmp[(n + k) % dim]?)) ∧
    ∀ k, L ≤ k → k < dim → b.1[(n + k) % dim]? = tmp[(n + k) % dim]?) dim (tmp, n) s
    ⟨(Nat.mod_eq_of_lt hn).symm, ht, fun _ => 0, by simp, by simp, fun _ _ _ => rfl⟩ ?_).mono ?_ (fun _ _ h => h)
  · rintro L ⟨y, m⟩ s hL ⟨hm, hy, u, hu, h1, h2⟩
    simp only at hm hy h1 h2
    subst hm
    have hm : (n + L) % dim < dim := Nat.mod_lt _ (by omega)
    have step : ((n + L) % dim + 1) % dim = (n + (L + 1)) % dim := by rw [Nat.mod_add_mod]; rfl
    unfold binStep
    rw [wp_bind]
    refine Gen.wp_draw01 hg (fun a s' ha0 ha1 => ?_)
    have hu' : ∀ j < L + 1, 0 ≤ (fun j => if j = L then a else u j) j ∧ (fun j => if j = L then a else u j) j ≤ 1 := by
      intro j hj
      dsimp only
      split
      · exact ⟨ha0, ha1⟩
      · exact hu j (by omega)
    split
    · rename_i h
      obtain ⟨w, hw⟩ := hgene _ hm
      have e : gene y ((n + L) % dim) = .ok w := by rw [hl y tmp _ (h2 L (le_refl _) hL)]; exact hw
      simp only
      rw [wp_bind, e, wp_lift_ok, wp_bind, wp_lift_set (by omega), wp_pure]
      rw [Bool.or_eq_true, decide_eq_true_eq] at h
      refine ⟨step, by simpa using hy, fun j => if j = L then a else u j, hu', ?_, ?_⟩
      · intro k hk
        rcases Nat.lt_or_ge k L with hkL | hkL
        · dsimp only
          rw [if_neg (by omega), List.getElem?_set_ne (mod_ne hkL (by omega)).symm]
          refine ⟨fun h' => ?_, fun h' => (h1 k hkL).2 h'⟩
          obtain ⟨w', e1, e2⟩ := (h1 k hkL).1 h'
          exact ⟨w', e1, by rw [List.getElem?_set_ne (mod_ne hkL (by omega)).symm]; exact e2⟩
        · have : k = L := by omega
          subst this
          refine ⟨fun _ => ⟨w, hw, by dsimp only; rw [List.getElem?_set_self (by omega)]⟩, fun h' => ?_⟩
          exfalso
          simp only [if_true] at h'
          exact h' h
      · intro k hk hkd
        dsimp only
        rw [List.getElem?_set_ne (mod_ne (by omega : L < k) hkd)]
        exact h2 k (by omega) hkd
    · rename_i h
      rw [Bool.or_eq_true, decide_eq_true_eq] at h
      refine ⟨step, hy, fun j => if j = L then a else u j, hu', ?_, fun k hk => h2 k (by omega)⟩
      intro k hk
      rcases Nat.lt_or_ge k L with hkL | hkL
      · dsimp only
        rw [if_neg (by omega)]
        exact h1 k hkL
      · have : k = L := by omega
        subst this
        simp only [if_true]
        exact ⟨fun h' => absurd h' h, fun _ => h2 k (le_refl _) hL⟩
  · rintro ⟨y, m⟩ s' ⟨_, hy, u, hu, h1, _⟩
    exact ⟨hy, n, u, hn, hu, h1⟩

end

/-! ### Bound repair -/

theorem wp_mend {P : AProb K} (hP : FiniteBox P) {g : Gen K σ} {rep : K → Prop} {op : Fl.Ops K} (hg : g.Lawful rep)
    (hop : NoOverflow op) {x : List (Fl K)} (hl : x.length = P.lb.length) (hx : AllFin x) {s : σ}
    {Q : List (Fl K) → σ → Prop} {E : Exn → σ → Prop} (hq : ∀ y s', InBox P.lb P.ub 0 y → Repaired P.lb P.ub x y → Q y s') :
    wp (Rnd.forceBoundsRandom g op x P.lb P.ub) Q E s := by
  have hb : BoxFor P.lb P.ub x := ⟨hl.symm, by rw [← hP.bounds.len]; exact hl.symm,
    fun i l u h1 h2 => ⟨(hP.bounds.ordered i l u h1 h2).2.2, (hP.bounds.ordered i l u h1 h2).2.1⟩⟩
  have h1 := C48_random (op := op) hg P.lb P.ub x hb (fun v hv => by obtain ⟨a, rfl⟩ := hx v hv; simp) s
  have h2 := wp_repair (E := E) (Q := fun y _ => InBox P.lb P.ub 0 y) hP hg hop hl hx (s := s) (fun y s' h => h)
  exact (h1.and h2).mono (fun y s' h => hq y s' h.2 h.1) (fun _ _ h => h.2)

/-! ### Adaptation -/

theorem wp_normals {D : Dist K σ} {E : Exn → σ → Prop} :
    ∀ (k : Nat) (Q : List (Fl K) → σ → Prop) (s : σ), (∀ z s', z.length = k → AllFin z → Q z s') → wp (normals D k) Q E s := by
  intro k
  induction k with
  | zero => intro Q s h; exact h [] s rfl (by intro v hv; cases hv)
  | succ k ih =>
    intro Q s h
    rw [normals, wp_bind]
    show wp (Bind.bind (normals D k) _) _ _ _
    rw [wp_bind]
    refine ih _ _ (fun z s' hl hf => ?_)
    refine h _ _ (by simp [hl]) ?_
    intro v hv
    rcases List.mem_cons.mp hv with rfl | hv
    · exact ⟨_, rfl⟩
    · exact hf v hv

omit [LinearOrder K] in
theorem par_fin {m : List (Fl K)} {NP : Nat} (hm : m.length = NP ∧ AllFin m) {r : List Nat} (hr : ∀ i ∈ r, i < NP) {k : Nat}
    (hk : k < r.length) : ∃ a, par m r k = .ok (.fin a) := by
  unfold par
  have h1 : r[k] < m.length := by rw [hm.1]; exact hr _ (List.getElem_mem hk)
  obtain ⟨a, ha⟩ := allFin_get hm.2 h1
  exact ⟨a, by rw [Outcome.get_of_lt hk, Outcome.bind_ok, ha]⟩

omit [LinearOrder K] in
theorem getD_fin {z : List (Fl K)} (hz : AllFin z) (k : Nat) : ∃ a, z.getD k (.fin 0) = .fin a := by
  rw [List.getD_eq_getElem?_getD]
  rcases hk : z[k]? with _ | v
  · exact ⟨0, rfl⟩
  · obtain ⟨a, rfl⟩ := hz v (List.mem_of_getElem? hk); exact ⟨a, rfl⟩

theorem kick_fin {op : Fl.Ops K} (hop : NoOverflow op) (z a b : K) : ∃ c, kick op (.fin z) (.fin a) (.fin b) = .fin c := by
  unfold kick
  obtain ⟨c, h⟩ := hop.sub a b
  obtain ⟨d, h'⟩ := hop.mul z (1 / 2)
  rw [h, h']
  exact hop.mul d c

theorem ideF_fin {op : Fl.Ops K} (hop : NoOverflow op) {variant NP : Nat} {z m : List (Fl K)} (hz : AllFin z) (hm : m.length = NP ∧ AllFin m)
    (g : K) {i : Nat} (hi : i < NP) {r : List Nat} (hr : r.length = 7 ∧ ∀ j ∈ r, j < NP) :
    ∃ a, ideF op variant z m (.fin g) i r = .ok (.fin a) := by
  obtain ⟨mi, e0⟩ := allFin_get hm.2 (i := i) (by omega)
  obtain ⟨m0, e1⟩ := par_fin hm hr.2 (k := 0) (by omega)
  obtain ⟨m1, e2⟩ := par_fin hm hr.2 (k := 1) (by omega)
  obtain ⟨m2, e3⟩ := par_fin hm hr.2 (k := 2) (by omega)
  obtain ⟨m3, e4⟩ := par_fin hm hr.2 (k := 3) (by omega)
  obtain ⟨m4, e5⟩ := par_fin hm hr.2 (k := 4) (by omega)
  obtain ⟨m5, e6⟩ := par_fin hm hr.2 (k := 5) (by omega)
  obtain ⟨m6, e7⟩ := par_fin hm hr.2 (k := 6) (by omega)
  obtain ⟨z0, f0⟩ := getD_fin hz 0
  obtain ⟨z1, f1⟩ := getD_fin hz 1
  obtain ⟨z2, f2⟩ := getD_fin hz 2
  unfold ideF
  rw [e0, Outcome.bind_ok, e1, Outcome.bind_ok, e2, Outcome.bind_ok, e3, Outcome.bind_ok, e4, Outcome.bind_ok, e5, Outcome.bind_ok,
    e6, Outcome.bind_ok, e7, Outcome.bind_ok, f0, f1, f2]
  have add : ∀ v w : Fl K, (∃ c, v = .fin c) → (∃ c, w = .fin c) → ∃ c, op.add v w = .fin c := by
    rintro v w ⟨a, rfl⟩ ⟨c, rfl⟩; exact hop.add a c
  have sub : ∀ v w : Fl K, (∃ c, v = .fin c) → (∃ c, w = .fin c) → ∃ c, op.sub v w = .fin c := by
    rintro v w ⟨a, rfl⟩ ⟨c, rfl⟩; exact hop.sub a c
  have k := fun z a b => kick_fin hop z a b
  have fin : ∀ a : K, ∃ c, Fl.fin a = Fl.fin c := fun a => ⟨a, rfl⟩
  have ok : ∀ w : Fl K, (∃ c, w = .fin c) → ∃ c, Outcome.ok w = Outcome.ok (Fl.fin c) := by
    rintro w ⟨c, rfl⟩; exact ⟨c, rfl⟩
  dsimp only
  repeat' split
  all_goals refine ok _ ?_
  · exact add _ _ (fin _) (k _ _ _)
  · exact add _ _ (fin _) (k _ _ _)
  · exact add _ _ (add _ _ (fin _) (k _ _ _)) (k _ _ _)
  · exact add _ _ (add _ _ (fin _) (k _ _ _)) (k _ _ _)
  · exact add _ _ (add _ _ (fin _) (k _ _ _)) (k _ _ _)
  · exact add _ _ (add _ _ (add _ _ (fin _) (k _ _ _)) (k _ _ _)) (k _ _ _)
  · exact add _ _ (add _ _ (add _ _ (fin _) (k _ _ _)) (k _ _ _)) (k _ _ _)
  · exact add _ _ (add _ _ (fin _) (k _ _ _)) (k _ _ _)
  · exact sub _ _ (add _ _ (fin _) (k _ _ _)) (k _ _ _)

theorem ideCR_fin {op : Fl.Ops K} (hop : NoOverflow op) {variant NP : Nat} {z m : List (Fl K)} (hz : AllFin z) (hm : m.length = NP ∧ AllFin m)
    (g : K) {i : Nat} (hi : i < NP) {r : List Nat} (hr : r.length = 7 ∧ ∀ j ∈ r, j < NP) :
    ∃ a, ideCR op variant z m (.fin g) i r = .ok (.fin a) := by
  obtain ⟨mi, e0⟩ := allFin_get hm.2 (i := i) (by omega)
  obtain ⟨m0, e1⟩ := par_fin hm hr.2 (k := 0) (by omega)
  obtain ⟨m1, e2⟩ := par_fin hm hr.2 (k := 1) (by omega)
  obtain ⟨m2, e3⟩ := par_fin hm hr.2 (k := 2) (by omega)
  obtain ⟨m3, e4⟩ := par_fin hm hr.2 (k := 3) (by omega)
  obtain ⟨m4, e5⟩ := par_fin hm hr.2 (k := 4) (by omega)
  obtain ⟨z0, f0⟩ := getD_fin hz 0
  obtain ⟨z1, f1⟩ := getD_fin hz 1
  unfold ideCR
  rw [e0, Outcome.bind_ok, e1, Outcome.bind_ok, e2, Outcome.bind_ok, e3, Outcome.bind_ok, e4, Outcome.bind_ok, e5, Outcome.bind_ok, f0, f1]
  have add : ∀ v w : Fl K, (∃ c, v = .fin c) → (∃ c, w = .fin c) → ∃ c, op.add v w = .fin c := by
    rintro v w ⟨a, rfl⟩ ⟨c, rfl⟩; exact hop.add a c
  have sub : ∀ v w : Fl K, (∃ c, v = .fin c) → (∃ c, w = .fin c) → ∃ c, op.sub v w = .fin c := by
    rintro v w ⟨a, rfl⟩ ⟨c, rfl⟩; exact hop.sub a c
  have mul : ∀ v w : Fl K, (∃ c, v = .fin c) → (∃ c, w = .fin c) → ∃ c, op.mul v w = .fin c := by
    rintro v w ⟨a, rfl⟩ ⟨c, rfl⟩; exact hop.mul a c
  have k := fun z a b => kick_fin hop z a b
  have fin : ∀ a : K, ∃ c, Fl.fin a = Fl.fin c := fun a => ⟨a, rfl⟩
  have ok : ∀ w : Fl K, (∃ c, w = .fin c) → ∃ c, Outcome.ok w = Outcome.ok (Fl.fin c) := by
    rintro w ⟨c, rfl⟩; exact ⟨c, rfl⟩
  dsimp only
  repeat' split
  all_goals refine ok _ ?_
  · exact add _ _ (fin _) (k _ _ _)
  · exact add _ _ (fin _) (k _ _ _)
  · exact add _ _ (add _ _ (fin _) (k _ _ _)) (k _ _ _)
  · exact add _ _ (add _ _ (fin _) (k _ _ _)) (k _ _ _)
  · exact add _ _ (add _ _ (fin _) (k _ _ _)) (k _ _ _)
  · exact add _ _ (fin _) (mul _ _ (mul _ _ (fin _) (fin _)) (sub _ _ (sub _ _ (add _ _ (fin _) (fin _)) (fin _)) (fin _)))
  · exact add _ _ (fin _) (mul _ _ (mul _ _ (fin _) (fin _)) (sub _ _ (sub _ _ (add _ _ (fin _) (fin _)) (fin _)) (fin _)))
  · exact add _ _ (add _ _ (fin _) (k _ _ _)) (k _ _ _)
  · exact sub _ _ (add _ _ (fin _) (k _ _ _)) (k _ _ _)

section
variable [IsStrictOrderedRing K]

theorem wp_adTune {v : Env K σ} {rep : K → Prop} (hg : v.g.Lawful rep) (hop : NoOverflow v.op) {D : Dist K σ} {adptv variant NP : Nat}
    {mF mCR : List (Fl K)} (hF : mF.length = NP ∧ AllFin mF) (hCR : mCR.length = NP ∧ AllFin mCR) {gF gCR : K} {i : Nat} (hi : i < NP)
    {r : List Nat} (hr : Picks NP 7 r) {E : Exn → σ → Prop} {s : σ} {Q : Fl K × Fl K → σ → Prop}
    (hq : ∀ F CR s', Tuned v.op adptv variant mF mCR (.fin gF) (.fin gCR) i r (.fin F) (.fin CR) → Q (.fin F, .fin CR) s') :
    wp (adTune v D adptv variant mF mCR (.fin gF) (.fin gCR) i r) Q E s := by
  unfold adTune
  split
  · rename_i h1
    rw [wp_bind]
    unfold jdeF
    rw [wp_bind]
    have hCR' : ∀ (F : K) (s : σ), (mF[i]? = some (.fin F) ∨ ∃ u : K, 0 ≤ u ∧ u ≤ 1 ∧ Fl.fin F = v.op.add (v.op.mul (.fin u) (.fin (9 / 10))) (.fin (1 / 10))) →
        wp (do let CR ← jdeCR v mCR i; pure (Fl.fin F, CR)) Q E s := by
      intro F s hF'
      rw [wp_bind]
      unfold jdeCR
      rw [wp_bind]
      refine Gen.wp_draw01 hg (fun a s' _ _ => ?_)
      split
      · obtain ⟨c, hc⟩ := hCR.2 _ (List.getElem_mem (l := mCR) (n := i) (by omega))
        rw [wp_lift_get (by omega), wp_pure, hc]
        refine hq F c _ ⟨fun _ => ⟨hF', Or.inl ?_⟩, fun h => absurd h1 h⟩
        rw [List.getElem?_eq_getElem (by omega), hc]
      · refine Gen.wp_draw01 hg (fun a s' h0 h1' => ?_)
        rw [wp_pure]
        exact hq F a _ ⟨fun _ => ⟨hF', Or.inr ⟨a, h0, h1', rfl⟩⟩, fun h => absurd h1 h⟩
    refine Gen.wp_draw01 hg (fun a s' _ _ => ?_)
    split
    · obtain ⟨c, hc⟩ := hF.2 _ (List.getElem_mem (l := mF) (n := i) (by omega))
      rw [wp_lift_get (by omega), hc]
      exact hCR' c _ (Or.inl (by rw [List.getElem?_eq_getElem (by omega), hc]))
    · rw [wp_bind]
      refine Gen.wp_draw01 hg (fun a s' h0 h1' => ?_)
      rw [wp_pure]
      obtain ⟨b, hb⟩ := hop.mul a (9 / 10)
      obtain ⟨c, hc⟩ := hop.add b (1 / 10)
      have e : v.op.add (v.op.mul (.fin a) (.fin (9 / 10))) (.fin (1 / 10)) = .fin c := by rw [hb, hc]
      rw [e]
      exact hCR' c _ (Or.inr ⟨a, h0, h1', e.symm⟩)
  · rename_i h1
    rw [wp_bind]
    refine wp_normals _ _ _ (fun z s1 hz1 hz2 => ?_)
    obtain ⟨F, eF⟩ := ideF_fin hop (variant := variant) hz2 hF gF hi ⟨hr.1, hr.2.2⟩
    rw [wp_bind, eF, wp_lift_ok, wp_bind]
    refine wp_normals _ _ _ (fun z' s2 hz3 hz4 => ?_)
    obtain ⟨CR, eC⟩ := ideCR_fin hop (variant := variant) hz4 hCR gCR hi ⟨hr.1, hr.2.2⟩
    rw [wp_bind, eC, wp_lift_ok, wp_pure]
    exact hq F CR _ ⟨fun h => absurd h h1, fun _ => ⟨z, z', hz2, hz4, hz1, hz3, eF, eC⟩⟩

/-- what the choice of the variant does -/
def PickOk (pickV : Nat → Run σ Nat) (VarOk : Nat → Nat → Prop) (VOk : Nat → Prop) : Prop :=
  ∀ (w : Nat) (s : σ) (E : Exn → σ → Prop), VOk w → wp (pickV w) (fun W _ => VarOk w W ∧ VOk W) E s

omit [IsStrictOrderedRing K] [Field K] [LinearOrder K] in
theorem isExp_iff {W : Nat} (h1 : 1 ≤ W) : (W ≤ 5 ∨ W = 11 ∨ W = 13 ∨ W = 15 ∨ W = 17) ↔ isExp W = true := by
  unfold isExp
  rw [decide_eq_true_eq]
  simp only [List.mem_cons, List.not_mem_nil, or_false]
  omega

/-- A trial: inside the bounds and made as it should be. -/
theorem wp_adCandidate {v : Env K σ} {rep : K → Prop} (hg : v.g.Lawful rep) (hop : NoOverflow v.op) {D : Dist K σ} {adptv : Nat}
    {pickV : Nat → Run σ Nat} {VarOk : Nat → Nat → Prop} {VOk : Nat → Prop} (hpick : PickOk pickV VarOk VOk)
    (hV1 : ∀ w, VOk w → 1 ≤ w) {P : AProb K} (hP : FiniteBox P) {c : AdVars K} {G h : Herd K} {NP : Nat} (h7 : 7 ≤ NP)
    (eGx : G.x = c.d.old) (eGb : G.bX = c.d.gbIter) (eGF : G.gF = c.iF) (eGC : G.gCR = c.iCR) (ehV : h.V = c.m.V) (ehF : h.F = c.m.F)
    (ehC : h.CR = c.m.CR) (hgb : InBox P.lb P.ub 0 c.d.gbIter) (hlen : c.d.old.length = NP) (hpo : ∀ x ∈ c.d.old, InBox P.lb P.ub 0 x)
    (hF : c.m.F.length = NP ∧ AllFin c.m.F) (hCR : c.m.CR.length = NP ∧ AllFin c.m.CR) (hV : c.m.V.length = NP ∧ ∀ w ∈ c.m.V, VOk w)
    (hiF : ∃ a, c.iF = .fin a) (hiC : ∃ a, c.iCR = .fin a) {i : Nat} (hi : i < NP) {s : σ} {E : Exn → σ → Prop}
    {Q : AdTrial K → σ → Prop}
    (hq : ∀ (y : List (Fl K)) (F CR : K) (W : Nat) (s' : σ), InBox P.lb P.ub 0 y → VOk W →
      TrialFor v.op P adptv NP VarOk G h i y (.fin F) (.fin CR) W → Q ⟨y, .fin F, .fin CR, W⟩ s') :
    wp (adCandidate v D adptv pickV P.lb P.ub c NP i) Q E s := by
  have hdim : 0 < P.lb.length := List.length_pos_iff.mpr hP.bounds.nonempty
  obtain ⟨gF, hiF⟩ := hiF
  obtain ⟨gC, hiC⟩ := hiC
  unfold adCandidate
  rw [wp_bind]
  refine wp_pickIdx_nodup hg h7 (fun r s1 hr => ?_)
  rw [wp_bind, wp_lift_get (by omega), wp_bind]
  refine (hpick _ s1 E (hV.2 _ (List.getElem_mem (l := c.m.V) (n := i) (by omega)))).mono ?_ (fun _ _ h => h)
  rintro W s2 ⟨hW1, hW2⟩
  rw [wp_bind, hiF, hiC]
  refine wp_adTune hg hop hF hCR hi hr (fun F CR s3 hT => ?_)
  rw [wp_bind, wp_lift_get (by omega), wp_bind]
  refine Gen.wp_drawNat hg (by omega) (fun n s4 _ hn => ?_)
  have hx := hpo _ (List.getElem_mem (l := c.d.old) (n := i) (by omega))
  have hxf := allFin_of_box hP hx
  have hgene : GeneOk P.lb.length (adGene v.op (.fin F) W c.d.gbIter c.d.old i r) :=
    adGene_fin hop ⟨hgb.1, allFin_of_box hP hgb⟩ ⟨hlen, fun x hx => ⟨(hpo x hx).1, allFin_of_box hP (hpo x hx)⟩⟩ hi ⟨hr.1, hr.2.2⟩
  have hgene' : ∀ n < P.lb.length, ∃ w, adGene v.op (.fin F) W c.d.gbIter c.d.old i r (c.d.old[i]'(by omega)) n = .ok w := by
    intro n hn
    obtain ⟨a, ha⟩ := hgene _ n hx.1 hn hxf
    exact ⟨_, ha⟩
  have hloc := adGene_local v.op (.fin F) W c.d.gbIter c.d.old i r
  have fin : ∀ (m : List (Fl K)) (s5 : σ), m.length = P.lb.length → AllFin m →
      (isExp W = true → ByExp (adGene v.op (.fin F) W c.d.gbIter c.d.old i r) (.fin CR) P.lb.length (c.d.old[i]'(by omega)) m) →
      (isExp W = false → ByBin (adGene v.op (.fin F) W c.d.gbIter c.d.old i r) (.fin CR) P.lb.length (c.d.old[i]'(by omega)) m) →
      wp (do let y ← Rnd.forceBoundsRandom v.g v.op m P.lb P.ub; pure (⟨y, .fin F, .fin CR, W⟩ : AdTrial K)) Q E s5 := by
    intro m s5 hm1 hm2 h1 h2
    rw [wp_bind]
    refine wp_mend hP hg hop hm1 hm2 (fun y s6 hy1 hy2 => ?_)
    rw [wp_pure]
    refine hq y F CR W s6 hy1 hW2 ⟨r, c.m.V[i]'(by omega), c.d.old[i]'(by omega), m, hr, ?_, hW1, ?_, ?_, ?_, ?_, hy2⟩
    · rw [ehV]; exact List.getElem?_eq_getElem (by omega)
    · rw [ehF, ehC, eGF, eGC, hiF, hiC]; exact hT
    · rw [eGx]; exact List.getElem?_eq_getElem (by omega)
    · rw [eGb, eGx, hP.nx]; exact h1
    · rw [eGb, eGx, hP.nx]; exact h2
  rw [wp_bind, adCross]
  have hex := isExp_iff (hV1 W hW2)
  split
  · rename_i hc
    have hE := hex.mp hc
    have k1 := wp_byExp (CR := Fl.fin CR) (E := E) hg hloc hgene' n (by omega) hx.1 P.lb.length 0 _ (fun _ => 0) s4 hdim (by omega) hx.1
      (by intro j hj; omega) (fun _ _ _ => rfl) (by intro j hj; omega) (by intro j hj; omega)
    rw [Nat.add_zero, Nat.mod_eq_of_lt (show n < P.lb.length by omega)] at k1
    have k2 := wp_expCross (g := v.g) (CR := Fl.fin CR) (E := E) (Q := fun y _ => y.length = P.lb.length ∧ AllFin y) hgene (fun y s' h1 h2 => ⟨h1, h2⟩)
      P.lb.length _ n s4 hx.1 (by omega) hxf
    exact (k1.and k2).mono (fun y s' hy => fin y s' hy.2.1 hy.2.2 (fun _ => hy.1) (fun h => by rw [hE] at h; cases h)) (fun _ _ h => h.1)
  · rename_i hc
    have hE : isExp W = false := by rw [← Bool.not_eq_true]; exact fun h => hc (hex.mpr h)
    have k1 := wp_byBin (CR := Fl.fin CR) (E := E) hg hloc hgene' hx.1 n (by omega) s4
    have k2 := wp_binCross (g := v.g) (CR := Fl.fin CR) (E := E) (s := s4) (Q := fun y _ => y.length = P.lb.length ∧ AllFin y) hgene
      (fun y s' h1 h2 => ⟨h1, h2⟩) hx.1 (show n < _ by omega) hxf
    exact (k1.and k2).mono (fun y s' hy => fin y s' hy.2.1 hy.2.2 (fun h => by rw [hE] at h; cases h) (fun _ => hy.1)) (fun _ _ h => h.1)

/-- what the run works with -/
def herd (c : AdVars K) (s : St K σ) : Herd K := ⟨s.pop.x, s.pop.f, c.m.F, c.m.CR, c.m.V, c.d.gbX, c.d.gbF, c.gF, c.gCR, s.evs⟩

/-- Within a generation that began with `G`: individuals before `i` are done, `n` evaluations since the run began. -/
structure AdMid (clean : Prop) (op : Fl.Ops K) (P : AProb K) (adptv NP : Nat) (VarOk : Nat → Nat → Prop) (VOk : Nat → Prop) (s0 : St K σ)
    (n : Nat) (G : Herd K) (i : Nat) (c : AdVars K) (new : List (ECall K)) (s : St K σ) : Prop where
  de : DeInv P NP s0 n c.d new s
  F : c.m.F.length = NP ∧ AllFin c.m.F
  CR : c.m.CR.length = NP ∧ AllFin c.m.CR
  V : c.m.V.length = NP ∧ ∀ w ∈ c.m.V, VOk w
  gF : ∃ a, c.gF = .fin a
  gCR : ∃ a, c.gCR = .fin a
  iF : ∃ a, c.iF = .fin a
  iCR : ∃ a, c.iCR = .fin a
  eGx : G.x = c.d.old
  eGb : G.bX = c.d.gbIter
  eGF : G.gF = c.iF
  eGC : G.gCR = c.iCR
  done : ∀ j, j < i → c.d.new[j]? = s.pop.x[j]?
  rest : ∀ j, i ≤ j → s.pop.x[j]? = G.x[j]?
  lead : LeadOk clean (herd c s)
  turn : InTurn (Tried op P adptv NP VarOk G) i G (herd c s)

omit [Field K] [IsStrictOrderedRing K] in
theorem valueOf_get {f : List (Fl K)} {a : Fl K} (h : f[0]? = some a) : valueOf f = a := by
  cases f with
  | nil => cases h
  | cons b l => cases h; rfl

omit [Field K] [IsStrictOrderedRing K] in
theorem notAbove_one {f g : List (Fl K)} (hf : f.length = 1) (hg : g.length = 1) : NotAbove f g ↔ Fl.le (valueOf f) (valueOf g) = true := by
  match f, g, hf, hg with
  | [a], [b], _, _ =>
    unfold NotAbove
    simp only [List.getElem?_cons_zero, Option.some.injEq, exists_and_left, exists_eq_left']
    rfl

theorem allFin_set' {x : List (Fl K)} {NP i : Nat} {a : K} (h : x.length = NP ∧ AllFin x) : (x.set i (.fin a)).length = NP ∧ AllFin (x.set i (.fin a)) :=
  ⟨by rw [List.length_set]; exact h.1, allFin_set h.2⟩

theorem mem_set_ok {VOk : Nat → Prop} {V : List Nat} {NP i W : Nat} (h : V.length = NP ∧ ∀ w ∈ V, VOk w) (hW : VOk W) :
    (V.set i W).length = NP ∧ ∀ w ∈ V.set i W, VOk w := by
  refine ⟨by rw [List.length_set]; exact h.1, fun w hw => ?_⟩
  rcases List.mem_or_eq_of_mem_set hw with hw | rfl
  · exact h.2 w hw
  · exact hW

omit [IsStrictOrderedRing K] in
/-- the best stays in the population -/
theorem leadOk_accept {clean : Prop} {h : Herd K} (hl : LeadOk clean h) {i : Nat} {y f fi : List (Fl K)} {F CR : Fl K} {W : Nat} (hix : i < h.x.length)
    (hfi : h.f[i]? = some fi) (hd : ∀ g ∈ h.f, g.length = 1) (hf1 : f.length = 1) (hle : Fl.le (valueOf f) (valueOf fi) = true)
    (hb : Fl.le (valueOf f) (valueOf h.bf) = false) : LeadOk clean (h.accept i y f F CR W) := by
  obtain ⟨⟨j, h1, h2⟩, h3⟩ := hl
  have hne : i ≠ j := by
    rintro rfl
    rw [hfi] at h2; cases h2
    rw [hle] at hb; cases hb
  have hbf1 := hd _ (List.mem_of_getElem? h2)
  refine ⟨⟨j, ?_, ?_⟩, fun hc g hg => ?_⟩
  · show (h.x.set i y)[j]? = _
    rw [List.getElem?_set_ne hne]; exact h1
  · show (h.f.set i f)[j]? = _
    rw [List.getElem?_set_ne hne]; exact h2
  · rcases List.mem_or_eq_of_mem_set hg with hg | rfl
    · exact h3 hc g hg
    · show NotAbove h.bf g
      have := h3 hc h.bf (List.mem_of_getElem? h2)
      rw [notAbove_one hbf1 hbf1, fl_le_iff] at this
      rw [fl_le_iff] at hle
      rw [notAbove_one hbf1 hf1, fl_le_iff]
      refine ⟨this.1, hle.1, ?_⟩
      rcases le_total (valueOf h.bf) (valueOf g) with h' | h'
      · exact h'
      · rw [fl_le_iff.mpr ⟨hle.1, this.1, h'⟩] at hb; cases hb

omit [IsStrictOrderedRing K] in
theorem leadOk_lead {clean : Prop} {h : Herd K} (hl : LeadOk clean h) {i : Nat} {y f fi : List (Fl K)} {F CR : Fl K} {W : Nat} (hix : i < h.x.length)
    (hfi : h.f[i]? = some fi) (hd : ∀ g ∈ h.f, g.length = 1) (hf1 : f.length = 1)
    (hb : Fl.le (valueOf f) (valueOf h.bf) = true) : LeadOk clean ((h.accept i y f F CR W).lead y f F CR) := by
  obtain ⟨⟨j, h1, h2⟩, h3⟩ := hl
  have hbf1 := hd _ (List.mem_of_getElem? h2)
  have hif := (List.getElem?_eq_some_iff.mp hfi).1
  refine ⟨⟨i, ?_, ?_⟩, fun hc g hg => ?_⟩
  · show (h.x.set i y)[i]? = some y
    rw [List.getElem?_set_self hix]
  · show (h.f.set i f)[i]? = some f
    rw [List.getElem?_set_self hif]
  · show NotAbove f g
    have hfb : NotAbove f h.bf := (notAbove_one hf1 hbf1).mpr hb
    rcases List.mem_or_eq_of_mem_set hg with hg | rfl
    · exact notAbove_trans hfb (h3 hc g hg)
    · rw [fl_le_iff] at hb
      rw [notAbove_one hf1 hf1, fl_le_iff]
      exact ⟨hb.1, hb.1, le_refl _⟩

theorem ad_individual {clean : Prop} {v : Env K σ} {rep : K → Prop} (hg : v.g.Lawful rep) (hop : NoOverflow v.op) {D : Dist K σ} {adptv : Nat}
    {pickV : Nat → Run σ Nat} {VarOk : Nat → Nat → Prop} {VOk : Nat → Prop} (hpick : PickOk pickV VarOk VOk)
    (hV1 : ∀ w, VOk w → 1 ≤ w) {P : AProb K} (hP : FiniteBox P) (hnobj : P.info.nobj = 1) (hnc : P.info.nc = 0) {s0 : St K σ} {NP : Nat}
    (hNP : s0.pop.id.length = NP) (h7 : 7 ≤ NP) {n : Nat} {G : Herd K} {i : Nat} {c : AdVars K} {new : List (ECall K)} {s : St K σ}
    (hi : AdMid clean v.op P adptv NP VarOk VOk s0 n G i c new s) (hiN : i < NP) :
    wp (adIndividual v D P adptv pickV NP c i)
      (fun c' s' => ∃ new', AdMid clean v.op P adptv NP VarOk VOk s0 (n + 1) G (i + 1) c' new' s') (RunFailed P s0) s := by
  have hd := hi.de
  have hnf : P.info.nf = 1 := by simp only [Info.nf, Info.nc] at *; omega
  have hnx0 : 0 < P.info.nx := by rw [hP.nx]; exact List.length_pos_iff.mpr hP.bounds.nonempty
  have hone : ∀ g ∈ s.pop.f, g.length = 1 := fun g hg => by rw [← hnf]; exact hd.tr.inv.wf.dimF g hg
  unfold adIndividual
  rw [wp_bind, wp_onRng]
  refine wp_adCandidate (h := herd c s) hg hop hpick hV1 hP h7 hi.eGx hi.eGb hi.eGF hi.eGC rfl rfl rfl hd.gbI hd.oldL hd.old hi.F hi.CR hi.V
    hi.iF hi.iCR hiN (fun y F CR W e hy hW hT => ?_)
  rw [wp_bind]
  have ev1 := wp_eval_tracked (Q := fun f s1 => f.length = P.info.nf ∧ s1.pop = s.pop ∧ Tracked P s0 (new ++ [(y, .ok f)]) s1) (E := RunFailed P s0)
    hP.nx (tracked_rng hd.tr e) hy (fun f s' h1 h2 _ h4 => ⟨h1, h2, h4⟩) (fun _ _ h => h)
  have ev2 := wp_eval (P := P) (s := ({ s with e := e } : St K σ)) (Q := fun f _ => P.fit s.evs y = .ok f) (E := fun _ _ => True)
    (x := y) (by rw [hP.nx]; exact hy.1) (fun f hf _ => hf) (fun _ _ _ => trivial)
  refine (ev1.and ev2).mono ?_ (fun _ _ h => h.1)
  rintro f s1 ⟨⟨hfl, hpop, ht⟩, hfit⟩
  rw [hnf] at hfl
  have hid : s1.pop.id.length = NP := by rw [ht.id, hNP]
  have hfn : c.d.fit.length = NP := by rw [hd.fit, hd.tr.inv.wf.fs, hd.tr.id, hNP]
  have hxn : s.pop.x.length = NP := by rw [hd.tr.inv.wf.xs, hd.tr.id, hNP]
  have hfi : (c.d.fit[i]'(by omega)).length = 1 := by
    refine hone _ ?_
    rw [← hd.fit]; exact List.getElem_mem _
  have hfe : s.pop.f[i]? = some (c.d.fit[i]'(by omega)) := by rw [← hd.fit]; exact List.getElem?_eq_getElem _
  rw [wp_bind, wp_lift_get (show 0 < f.length by omega), wp_bind, wp_lift_get (by omega), wp_bind, wp_lift_get (show 0 < (c.d.fit[i]'(by omega)).length by omega)]
  have v1 : f[0]'(by omega) = valueOf f := (valueOf_get (List.getElem?_eq_getElem (by omega))).symm
  have v2 : (c.d.fit[i]'(by omega))[0]'(by omega) = valueOf (c.d.fit[i]'(by omega)) := (valueOf_get (List.getElem?_eq_getElem (by omega))).symm
  rw [v1, v2]
  have hmono : ∀ p ∈ new, p ∈ new ++ [(y, Except.ok f)] := fun p hp => List.mem_append_left _ hp
  have hbase : EachImproved (new ++ [(y, .ok f)]) s0.pop s1.pop := by rw [hpop]; exact eachImproved_mono hmono hd.imp
  have hol := hd.oldL
  have hnl := hd.nwL
  have hevs : s1.evs = s.evs ++ [(y, .ok f)] := by rw [ht.evs, hd.tr.evs, List.append_assoc]
  have hF := hi.F.1
  have hC := hi.CR.1
  have hVl := hi.V.1
  split
  · rename_i hle
    rw [wp_bind, wp_lift_set (by omega), wp_bind, wp_lift_set (by omega), wp_bind]
    refine wp_setXF_tracked hnx0 (by omega) ht (by omega) (by rw [hP.nx]; exact hy.1) (by rw [hnf]; exact hfl) ?_ (fun _ _ h => h)
    intro s2 ht2 _ hx2 hf2 _
    rw [hpop] at hx2 hf2
    rw [wp_bind, wp_lift_set (by omega), wp_bind, wp_lift_set (by omega), wp_bind, wp_lift_set (by omega), wp_bind,
      wp_lift_get (by rw [hd.gbF]; omega)]
    have v3 : c.d.gbF[0]'(by rw [hd.gbF]; omega) = valueOf c.d.gbF := (valueOf_get (List.getElem?_eq_getElem (by rw [hd.gbF]; omega))).symm
    rw [v3]
    have himp : EachImproved (new ++ [(y, .ok f)]) s0.pop s2.pop :=
      eachImproved_set ht.inv.wf hbase (by rw [hpop]; exact hfe) (List.mem_append_right new (List.mem_singleton.mpr rfl)) ((notAbove_one hfl hfi).mpr hle) (by rw [hx2, hpop]) (by rw [hf2, hpop])
    have hxs : ∀ x ∈ s2.pop.x, InBox P.lb P.ub 0 x := by
      rw [hx2]; exact box_set hd.xs hy
    have hfit' : c.d.fit.set i f = s2.pop.f := by rw [hf2, hd.fit]
    have hevs2 : s2.evs = s.evs ++ [(y, .ok f)] := by rw [ht2.evs, hd.tr.evs, List.append_assoc]
    have hdone : ∀ j, j < i + 1 → (c.d.new.set i y)[j]? = s2.pop.x[j]? := by
      intro j hj
      rw [hx2]
      rcases Nat.lt_or_ge j i with hj' | hj'
      · rw [List.getElem?_set_ne (by omega), List.getElem?_set_ne (by omega)]; exact hi.done j hj'
      · have : j = i := by omega
        subst this
        rw [List.getElem?_set_self (by omega), List.getElem?_set_self (by omega)]
    have hrest : ∀ j, i + 1 ≤ j → s2.pop.x[j]? = G.x[j]? := by
      intro j hj
      rw [hx2, List.getElem?_set_ne (by omega)]; exact hi.rest j (by omega)
    have hlead0 : LeadOk clean { herd c s with evs := s.evs ++ [(y, .ok f)] } := hi.lead
    by_cases hb : Fl.le (valueOf f) (valueOf c.d.gbF) = true
    · rw [if_pos hb, wp_pure]
      have eh : (({ herd c s with evs := s.evs ++ [(y, .ok f)] } : Herd K).accept i y f (.fin F) (.fin CR) W).lead y f (.fin F) (.fin CR) =
          herd { c with d := { c.d with fit := c.d.fit.set i f, new := c.d.new.set i y, gbX := y, gbF := f },
                        m := ⟨c.m.CR.set i (.fin CR), c.m.F.set i (.fin F), c.m.V.set i W⟩, gF := .fin F, gCR := .fin CR } s2 := by
        simp only [herd, Herd.accept, Herd.lead, hx2, hf2, hevs2]
      refine ⟨_, ⟨⟨ht2, himp, hfit', by simp [hd.cnt], hxs, hd.old, hd.oldL, box_set hd.nw hy, by simpa using hd.nwL, hy, hd.gbI, hfl⟩,
        allFin_set' hi.F, allFin_set' hi.CR, mem_set_ok hi.V hW, ⟨_, rfl⟩, ⟨_, rfl⟩, hi.iF, hi.iCR, hi.eGx, hi.eGb, hi.eGF, hi.eGC, hdone,
        hrest, ?_, ?_⟩⟩
      · rw [← eh]
        exact leadOk_lead hlead0 (by show i < s.pop.x.length; omega) hfe hone hfl hb
      · refine InTurn.succ hi.turn ⟨y, f, _, .fin F, .fin CR, W, hT, hfit, hfl, hfe, ?_⟩
        rw [if_pos hle, if_pos (show Fl.le (valueOf f) (valueOf (herd c s).bf) = true from hb), ← eh]; rfl
    · rw [if_neg hb, wp_pure]
      have eh : ({ herd c s with evs := s.evs ++ [(y, .ok f)] } : Herd K).accept i y f (.fin F) (.fin CR) W =
          herd { c with d := { c.d with fit := c.d.fit.set i f, new := c.d.new.set i y },
                        m := ⟨c.m.CR.set i (.fin CR), c.m.F.set i (.fin F), c.m.V.set i W⟩ } s2 := by
        simp only [herd, Herd.accept, hx2, hf2, hevs2]
      refine ⟨_, ⟨⟨ht2, himp, hfit', by simp [hd.cnt], hxs, hd.old, hd.oldL, box_set hd.nw hy, by simpa using hd.nwL, hd.gbX, hd.gbI, hd.gbF⟩,
        allFin_set' hi.F, allFin_set' hi.CR, mem_set_ok hi.V hW, hi.gF, hi.gCR, hi.iF, hi.iCR, hi.eGx, hi.eGb, hi.eGF, hi.eGC, hdone,
        hrest, ?_, ?_⟩⟩
      · rw [← eh]
        exact leadOk_accept hlead0 (by show i < s.pop.x.length; omega) hfe hone hfl hle (Bool.not_eq_true _ ▸ hb)
      · refine InTurn.succ hi.turn ⟨y, f, _, .fin F, .fin CR, W, hT, hfit, hfl, hfe, ?_⟩
        rw [if_pos hle, if_neg (show ¬ Fl.le (valueOf f) (valueOf (herd c s).bf) = true from hb), ← eh]; rfl
  · rename_i hle
    rw [wp_bind, wp_lift_get (by omega), wp_bind, wp_lift_set (by omega), wp_pure]
    have eh : ({ herd c s with evs := s.evs ++ [(y, .ok f)] } : Herd K) =
        herd { c with d := { c.d with new := c.d.new.set i (c.d.old[i]'(by omega)) } } s1 := by
      simp only [herd, hpop, hevs]
    refine ⟨_, ⟨⟨ht, hbase, by rw [hpop]; exact hd.fit, by simp [hd.cnt], by rw [hpop]; exact hd.xs, hd.old, hd.oldL,
      box_set hd.nw (hd.old _ (List.getElem_mem _)), by simpa using hd.nwL, hd.gbX, hd.gbI, hd.gbF⟩,
      hi.F, hi.CR, hi.V, hi.gF, hi.gCR, hi.iF, hi.iCR, hi.eGx, hi.eGb, hi.eGF, hi.eGC, ?_, ?_, ?_, ?_⟩⟩
    · intro j hj
      dsimp only
      rw [hpop]
      rcases Nat.lt_or_ge j i with hj' | hj'
      · rw [List.getElem?_set_ne (by omega)]; exact hi.done j hj'
      · have : j = i := by omega
        subst this
        rw [List.getElem?_set_self (by omega), hi.rest j (le_refl _), hi.eGx, List.getElem?_eq_getElem (by omega)]
    · intro j hj
      rw [hpop]; exact hi.rest j (by omega)
    · rw [← eh]; exact hi.lead
    · refine InTurn.succ hi.turn ⟨y, f, _, .fin F, .fin CR, W, hT, hfit, hfl, hfe, ?_⟩
      rw [if_neg hle, ← eh]; rfl

/-! ### The exit conditions -/

omit [IsStrictOrderedRing K] in
theorem flat_fold (op : Fl.Ops K) (xw xb : List (Fl K)) (hl : xw.length = xb.length) : ∀ n ≤ xw.length, ∀ d : Fl K,
    (List.range n).foldlM (flatStep op xw xb) d = .ok (((List.zipWith (fun a b => Fl.abs (op.sub a b)) xw xb).take n).foldl op.add d) := by
  intro n
  induction n with
  | zero => intro _ d; rfl
  | succ n ih =>
    intro hn d
    rw [List.range_succ, List.foldlM_append, ih (by omega), Outcome.bind_ok, List.foldlM_cons]
    unfold flatStep
    rw [Outcome.get_of_lt (show n < xw.length by omega), Outcome.bind_ok, Outcome.get_of_lt (show n < xb.length by omega), Outcome.bind_ok,
      List.take_succ_eq_append_getElem (by rw [List.length_zipWith]; omega), List.foldl_append]
    simp only [List.getElem_zipWith, List.foldl_cons, List.foldl_nil]
    rfl

omit [IsStrictOrderedRing K] in
theorem flat_iff {v : Env K σ} {P : AProb K} (hnobj : P.info.nobj = 1) (hnc : P.info.nc = 0) {p : Pop.State K}
    (hi : WellFormed P.info p) (hne : p.id ≠ []) (hsz : p.id.length ≤ 2 ^ 63) (xtol ftol : Fl K) :
    ∃ b, flatEnough v P xtol ftol p = .ok b ∧ (b = true ↔ Flat v P ftol xtol p.tol p.x p.f) := by
  have hfl := hi.fs
  have hxl := hi.xs
  have hpos : 0 < p.id.length := List.length_pos_iff.mpr hne
  have hnf : P.info.nf = 1 := by simp only [Info.nf, Info.nc] at *; omega
  obtain ⟨⟨bi, hb1, hb2⟩, ⟨wi, hw1, hw2⟩⟩ := idx_lt (srt := v.srt) (sq := v.sq) hnobj hnc
    (fs := p.f) (fun h => by rw [h] at hfl; simp at hfl; omega) (by omega) p.tol
  unfold flatEnough
  have dw := hi.dimX _ (List.getElem_mem (l := p.x) (n := wi) (by omega))
  have db := hi.dimX _ (List.getElem_mem (l := p.x) (n := bi) (by omega))
  have h1 := hi.dimF _ (List.getElem_mem (l := p.f) (n := wi) (by omega))
  have h2 := hi.dimF _ (List.getElem_mem (l := p.f) (n := bi) (by omega))
  rw [hb1, Outcome.bind_ok, hw1, Outcome.bind_ok, Outcome.get_of_lt (show wi < p.x.length by omega), Outcome.bind_ok,
    Outcome.get_of_lt (show bi < p.x.length by omega), Outcome.bind_ok, flat_fold v.op _ _ (by omega) _ (by omega), Outcome.bind_ok,
    List.take_of_length_le (by rw [List.length_zipWith]; omega), Outcome.get_of_lt hw2, Outcome.bind_ok, Outcome.get_of_lt hb2, Outcome.bind_ok,
    Outcome.get_of_lt (by omega), Outcome.bind_ok, Outcome.get_of_lt (by omega), Outcome.bind_ok]
  have v1 : p.f[wi][0]'(by omega) = valueOf p.f[wi] := (valueOf_get (List.getElem?_eq_getElem (by omega))).symm
  have v2 : p.f[bi][0]'(by omega) = valueOf p.f[bi] := (valueOf_get (List.getElem?_eq_getElem (by omega))).symm
  rw [v1, v2]
  have key : Flat v P ftol xtol p.tol p.x p.f ↔
      (Fl.lt ((List.zipWith (fun a b => Fl.abs (v.op.sub a b)) (p.x[wi]'(by omega)) (p.x[bi]'(by omega))).foldl v.op.add (.fin 0)) xtol = true ∨
      Fl.lt (Fl.abs (v.op.sub (valueOf p.f[wi]) (valueOf p.f[bi]))) ftol = true) := by
    constructor
    · rintro ⟨b, w, xb, xw, fb, fw, e1, e2, e3, e4, e5, e6, h⟩
      rw [hb1, Outcome.ok.injEq] at e1
      rw [hw1, Outcome.ok.injEq] at e2
      subst e1 e2
      rw [List.getElem?_eq_getElem (by omega), Option.some.injEq] at e3 e4 e5 e6
      subst e3 e4 e5 e6
      exact h
    · intro h
      exact ⟨bi, wi, _, _, _, _, hb1, hw1, List.getElem?_eq_getElem (by omega), List.getElem?_eq_getElem (by omega), List.getElem?_eq_getElem (by omega),
        List.getElem?_eq_getElem (by omega), h⟩
  rw [key]
  split
  · rename_i h
    exact ⟨true, rfl, by simp only [h, true_or]⟩
  · rename_i h
    exact ⟨_, rfl, by simp only [h, Bool.false_eq_true, false_or]⟩

/-! ### Generations -/

omit [Field K] [LinearOrder K] [IsStrictOrderedRing K] in
/-- the loop over the generations, with the exit condition -/
theorem wp_genLoop_stop {β : Type} {body : Nat → β → Run (St K σ) (β × Bool)} {gens : Nat} (hgens : gens + 1 < 2 ^ 32)
    {E : Exn → St K σ → Prop} (I J : Nat → β → St K σ → Prop)
    (hb : ∀ k b s, k < gens → I k b s →
      wp (body (k + 1) b) (fun r s' => (r.2 = false → I (k + 1) r.1 s') ∧ (r.2 = true → J (k + 1) r.1 s')) E s) :
    ∀ (fuel k : Nat) (b : β) (s : St K σ), k ≤ gens → gens - k < fuel → I k b s →
      wp (genLoop body gens fuel (k + 1) b) (fun b' s' => I gens b' s' ∨ ∃ k' ≤ gens, k < k' ∧ J k' b' s') E s := by
  intro fuel
  induction fuel with
  | zero => intro k b s _ h _; omega
  | succ n ih =>
    intro k b s hk hf hI
    rw [genLoop]
    split
    · rename_i hlt
      rw [wp_bind]
      refine (hb k b s (by omega) hI).mono ?_ (fun _ _ h => h)
      intro r s' hr
      split
      · rename_i h
        exact Or.inr ⟨k + 1, by omega, by omega, hr.2 h⟩
      · rename_i h
        rw [show incU (k + 1) = k + 1 + 1 from incU_eq (by omega)]
        refine (ih (k + 1) r.1 s' (by omega) (by omega) (hr.1 (by simpa using h))).mono ?_ (fun _ _ h => h)
        rintro b' s'' (h' | ⟨k', h1, h2, h3⟩)
        · exact Or.inl h'
        · exact Or.inr ⟨k', h1, by omega, h3⟩
    · have : k = gens := by omega
      subst this
      exact Or.inl hI

theorem ad_generation {clean : Prop} {v : Env K σ} {rep : K → Prop} (hg : v.g.Lawful rep) (hop : NoOverflow v.op) {D : Dist K σ} {adptv : Nat}
    {pickV : Nat → Run σ Nat} {VarOk : Nat → Nat → Prop} {VOk : Nat → Prop} (hpick : PickOk pickV VarOk VOk)
    (hV1 : ∀ w, VOk w → 1 ≤ w) {P : AProb K} (hP : FiniteBox P) (hnobj : P.info.nobj = 1) (hnc : P.info.nc = 0) {s0 : St K σ} {NP : Nat}
    (hNP : s0.pop.id.length = NP) (h7 : 7 ≤ NP) (hsz : NP ≤ 2 ^ 63) (ftol xtol : Fl K) {n : Nat} {c : AdVars K} {new : List (ECall K)}
    {s : St K σ} (hi : AdMid clean v.op P adptv NP VarOk VOk s0 n (herd c s) 0 c new s) (k : Nat) :
    wp (adGen v D P adptv ftol xtol pickV NP k c)
      (fun r s' => (∃ new', AdMid clean v.op P adptv NP VarOk VOk s0 (n + NP) (herd r.1 s') 0 r.1 new' s') ∧
        AdGeneration clean v.op P adptv NP VarOk (herd c s) (herd r.1 s') ∧
        (r.2 = true ↔ Flat v P ftol xtol s0.pop.tol (herd r.1 s').x (herd r.1 s').f)) (RunFailed P s0) s := by
  unfold adGen
  rw [wp_bind]
  refine (wp_range (fun j (b : AdVars K) s' => ∃ new', AdMid clean v.op P adptv NP VarOk VOk s0 (n + j) (herd c s) j b new' s')
    NP c s ⟨new, hi⟩ ?_).mono ?_ (fun _ _ h => h)
  · rintro i b s2 hi2 ⟨new2, h2⟩
    exact ad_individual hg hop hpick hV1 hP hnobj hnc hNP h7 h2 hi2
  · rintro c2 s2 ⟨new2, h2⟩
    have hid := h2.de.tr.id
    obtain ⟨b, hb, hbi⟩ := flat_iff (v := v) hnobj hnc h2.de.tr.inv.wf (by intro h; rw [h] at hid; rw [← hid] at hNP; simp at hNP; omega)
      (by rw [hid, hNP]; exact hsz) xtol ftol
    rw [wp_bind, wp_get', wp_bind, hb, wp_lift_ok, wp_pure]
    have hnew : s2.pop.x = c2.d.new := by
      have hx := h2.de.tr.inv.wf.xs
      rw [hid, hNP] at hx
      have hn := h2.de.nwL
      refine List.ext_getElem? (fun j => ?_)
      rcases Nat.lt_or_ge j NP with hj | hj
      · exact (h2.done j hj).symm
      · rw [List.getElem?_eq_none (by omega), List.getElem?_eq_none (by omega)]
    refine ⟨⟨new2, ⟨h2.de.tr, h2.de.imp, h2.de.fit, h2.de.cnt, h2.de.xs, h2.de.nw, h2.de.nwL, h2.de.old, h2.de.oldL, h2.de.gbX, h2.de.gbX, h2.de.gbF⟩,
      h2.F, h2.CR, h2.V, h2.gF, h2.gCR, h2.gF, h2.gCR, hnew, rfl, rfl, rfl, fun j hj => absurd hj (by omega), fun _ _ => rfl, h2.lead, InTurn.zero _⟩,
      ⟨hi.lead, h2.turn⟩, ?_⟩
    rw [hbi, h2.de.tr.tol]; rfl

theorem wp_adRun {v : Env K σ} {rep : K → Prop} (hg : v.g.Lawful rep) (hop : NoOverflow v.op) {D : Dist K σ} {adptv : Nat}
    {pickV : Nat → Run σ Nat} {VarOk : Nat → Nat → Prop} {VOk : Nat → Prop} (hpick : PickOk pickV VarOk VOk)
    (hV1 : ∀ w, VOk w → 1 ≤ w) {P : AProb K} (hP : FiniteBox P) (hnobj : P.info.nobj = 1) (hnc : P.info.nc = 0) {s0 s : St K σ}
    (hi : Inv P.info s.pop) (h7 : 7 ≤ s.pop.id.length) (hsz : s.pop.id.length ≤ 2 ^ 63) (hbox : ∀ x ∈ s.pop.x, InBox P.lb P.ub 0 x)
    (ftol xtol : Fl K) {gens fuel : Nat} (hgens : gens + 1 < 2 ^ 32) (h0 : 0 < gens) (hfuel : gens < fuel) {m : AdMem K}
    (hF : m.F.length = s.pop.id.length ∧ AllFin m.F) (hCR : m.CR.length = s.pop.id.length ∧ AllFin m.CR)
    (hV : m.V.length = s.pop.id.length ∧ ∀ w ∈ m.V, VOk w) (hs0 : s0.pop = s.pop ∧ s0.evs = s.evs) :
    wp (adRun v D P gens adptv ftol xtol pickV fuel m)
      (fun m' s' => AdDone v P gens adptv ftol xtol VarOk s0 m m' s' ∧ ∀ w ∈ m'.V, VOk w) (RunFailed P s0) s := by
  have hnf : P.info.nf = 1 := by simp only [Info.nf, Info.nc] at *; omega
  have hfl := hi.wf.fs
  have hxl := hi.wf.xs
  obtain ⟨pop0, e0, evs0⟩ := s0
  obtain ⟨pop, e, evs⟩ := s
  obtain ⟨rfl, rfl⟩ := hs0
  dsimp only at *
  unfold adRun
  obtain ⟨bi, hb1, hb2, hmin⟩ := bestIdx_pso (srt := v.srt) (sq := v.sq) hnobj hnc (fs := pop0.f)
    (fun h => by rw [h] at hfl; simp at hfl; omega) (by omega) (fun f hf => by rw [← hnf]; exact hi.wf.dimF f hf) pop0.tol
  rw [wp_bind, wp_get', wp_bind, hb1, wp_lift_ok, wp_bind, wp_lift_get (by dsimp only; omega), wp_bind, wp_lift_get hb2, wp_bind,
    wp_lift_get (by omega), wp_bind, wp_lift_get (by omega), wp_bind]
  have hgb := hbox _ (List.getElem_mem (l := pop0.x) (n := bi) (by omega))
  have fF := hF.2 _ (List.getElem_mem (l := m.F) (n := 0) (by omega))
  have fC := hCR.2 _ (List.getElem_mem (l := m.CR) (n := 0) (by omega))
  generalize hc0 : (AdVars.mk (DVars.mk pop0.x pop0.x pop0.f (pop0.x[bi]'(by omega)) pop0.f[bi] (pop0.x[bi]'(by omega))) m
    (m.F[0]'(by omega)) (m.CR[0]'(by omega)) (m.F[0]'(by omega)) (m.CR[0]'(by omega)) : AdVars K) = c0
  have hbase : AdMid (∀ f ∈ pop0.f, Fl.nan ∉ f) v.op P adptv pop0.id.length VarOk VOk (⟨pop0, e0, evs0⟩ : St K σ) (0 * pop0.id.length)
      (herd c0 (⟨pop0, e, evs0⟩ : St K σ)) 0 c0 [] ⟨pop0, e, evs0⟩ := by
    subst hc0
    refine ⟨⟨tracked_rng (tracked_refl hi) e, ?_, rfl, by simp, hbox, hbox, hxl, hbox, hxl, hgb, hgb, ?_⟩, hF, hCR, hV, fF, fC, fF, fC, rfl, rfl, rfl, rfl,
      fun j hj => absurd hj (by omega), fun _ _ => rfl, ⟨⟨bi, ?_, ?_⟩, hmin⟩, InTurn.zero _⟩
    · intro i x0 f0 x f h1 h2 h3 h4
      rw [h1] at h3; rw [h2] at h4; cases h3; cases h4; exact Or.inl rfl
    · rw [← hnf]; exact hi.wf.dimF _ (List.getElem_mem hb2)
    · exact List.getElem?_eq_getElem _
    · exact List.getElem?_eq_getElem _
  refine (wp_genLoop_stop (E := RunFailed P (⟨pop0, e0, evs0⟩ : St K σ)) hgens
    (fun k c s' => (∃ new, AdMid (∀ f ∈ pop0.f, Fl.nan ∉ f) v.op P adptv pop0.id.length VarOk VOk (⟨pop0, e0, evs0⟩ : St K σ) (k * pop0.id.length)
      (herd c s') 0 c new s') ∧
      Steps (fun a b => AdGeneration (∀ f ∈ pop0.f, Fl.nan ∉ f) v.op P adptv pop0.id.length VarOk a b ∧ ¬ Flat v P ftol xtol pop0.tol b.x b.f) k
        (herd c0 (⟨pop0, e, evs0⟩ : St K σ)) (herd c s'))
    (fun k c s' => (∃ new, AdMid (∀ f ∈ pop0.f, Fl.nan ∉ f) v.op P adptv pop0.id.length VarOk VOk (⟨pop0, e0, evs0⟩ : St K σ) (k * pop0.id.length)
      (herd c s') 0 c new s') ∧ ∃ h1, 0 < k ∧
      Steps (fun a b => AdGeneration (∀ f ∈ pop0.f, Fl.nan ∉ f) v.op P adptv pop0.id.length VarOk a b ∧ ¬ Flat v P ftol xtol pop0.tol b.x b.f) (k - 1)
        (herd c0 (⟨pop0, e, evs0⟩ : St K σ)) h1 ∧
      AdGeneration (∀ f ∈ pop0.f, Fl.nan ∉ f) v.op P adptv pop0.id.length VarOk h1 (herd c s') ∧
      Flat v P ftol xtol pop0.tol (herd c s').x (herd c s').f)
    ?_ fuel 0 c0 _ (by omega) (by omega) ⟨⟨[], hbase⟩, Steps.refl _⟩).mono ?_ (fun _ _ h => h)
  · rintro k c s1 hk ⟨⟨new, h1⟩, hst⟩
    refine (ad_generation (s0 := (⟨pop0, e0, evs0⟩ : St K σ)) (NP := pop0.id.length) hg hop hpick hV1 hP hnobj hnc rfl h7 hsz ftol xtol h1 (k + 1)).mono ?_ (fun _ _ h => h)
    rintro r s2 ⟨h2, h3, h4⟩
    rw [show k * pop0.id.length + pop0.id.length = (k + 1) * pop0.id.length by ring] at h2
    refine ⟨fun hr => ⟨h2, Steps.snoc hst ⟨h3, fun h => ?_⟩⟩, fun hr => ⟨h2, _, by omega, hst, h3, h4.mp hr⟩⟩
    rw [h4.mpr h] at hr; cases hr
  · have fin : ∀ (c : AdVars K) (s' : St K σ) (k : Nat), k ≤ gens → 0 < k →
        (∃ new, AdMid (∀ f ∈ pop0.f, Fl.nan ∉ f) v.op P adptv pop0.id.length VarOk VOk (⟨pop0, e0, evs0⟩ : St K σ) (k * pop0.id.length)
          (herd c s') 0 c new s') →
        AdRun (∀ f ∈ pop0.f, Fl.nan ∉ f) v P adptv pop0.id.length VarOk ftol xtol pop0.tol gens (herd c0 (⟨pop0, e, evs0⟩ : St K σ)) (herd c s') →
        AdDone v P gens adptv ftol xtol VarOk (⟨pop0, e0, evs0⟩ : St K σ) m c.m s' ∧ ∀ w ∈ c.m.V, VOk w := by
      rintro c s' k hk1 hk0 ⟨new, h⟩ hr
      refine ⟨⟨⟨h.de.tr.inv, h.de.tr.id, ⟨new, h.de.tr.evs, h.de.tr.box, h.de.tr.user, h.de.imp, k, h.de.cnt, hk1, fun _ => hk0⟩, h.de.xs⟩,
        ⟨h.F.1, h.CR.1, h.V.1⟩, ⟨h.F.2, h.CR.2⟩, _, _, ?_, ?_, ?_, ?_, ?_, ?_, ?_, ?_, hr, h.lead, rfl, rfl, rfl, rfl, rfl, rfl⟩, h.V.2⟩
      · rfl
      · rfl
      · rfl
      · rw [← hc0]; rfl
      · rw [← hc0]; rfl
      · rw [← hc0]; rfl
      · rw [← hc0]; exact List.getElem?_eq_getElem _
      · rw [← hc0]; exact List.getElem?_eq_getElem _
    rintro c s' (⟨h1, h2⟩ | ⟨k, hk1, hk0, h1, hh, hk, h2, h3, h4⟩)
    · rw [wp_pure]
      exact fin c s' gens (le_refl _) h0 h1 (Or.inl h2)
    · rw [wp_pure]
      exact fin c s' k hk1 hk0 h1 (Or.inr ⟨k - 1, hh, by omega, h2, h3, h4⟩)

/-! ### The parameters at the start -/

theorem wp_adInit {v : Env K σ} {rep : K → Prop} (hg : v.g.Lawful rep) {D : Dist K σ} {adptv NP : Nat} {E : Exn → σ → Prop} {s : σ} :
    wp (adInit v D adptv NP) (fun p _ => FreshPars v.op adptv NP p.2 p.1) E s := by
  unfold adInit
  refine (wp_range (fun j (p : List (Fl K) × List (Fl K)) _ => FreshPars v.op adptv j p.2 p.1) NP _ s
    ⟨rfl, rfl, fun _ => ⟨by simp, by simp⟩, fun _ => by simp⟩ ?_)
  rintro j ⟨CR, F⟩ s1 hj ⟨h1, h2, h3, h4⟩
  dsimp only at h1 h2 h3 h4
  unfold adInitStep
  split
  · rename_i ha
    rw [wp_bind]
    refine Gen.wp_draw01 hg (fun a s' a0 a1 => ?_)
    rw [wp_bind]
    refine Gen.wp_draw01 hg (fun b s' b0 b1 => ?_)
    rw [wp_pure]
    refine ⟨by simp [h1], by simp [h2], fun _ => ⟨fun c hc => ?_, fun c hc => ?_⟩, fun h => absurd ha h⟩
    · rcases List.mem_append.mp hc with hc | hc
      · exact (h3 ha).1 c hc
      · exact ⟨b, b0, b1, List.mem_singleton.mp hc⟩
    · rcases List.mem_append.mp hc with hc | hc
      · exact (h3 ha).2 c hc
      · exact ⟨a, a0, a1, List.mem_singleton.mp hc⟩
  · rename_i ha
    refine ⟨by simp [h1], by simp [h2], fun h => absurd h ha, fun _ c hc => ?_⟩
    have h4 := h4 ha
    rcases List.mem_append.mp hc with hc | hc
    · rcases List.mem_append.mp hc with hc | hc
      · exact h4 c (List.mem_append_left _ hc)
      · exact ⟨_, List.mem_singleton.mp hc⟩
    · rcases List.mem_append.mp hc with hc | hc
      · exact h4 c (List.mem_append_right _ hc)
      · exact ⟨_, List.mem_singleton.mp hc⟩

omit [IsStrictOrderedRing K] in
theorem freshPars_fin {op : Fl.Ops K} (hop : NoOverflow op) {adptv NP : Nat} {F CR : List (Fl K)} (h : FreshPars op adptv NP F CR) :
    (F.length = NP ∧ AllFin F) ∧ (CR.length = NP ∧ AllFin CR) := by
  obtain ⟨h1, h2, h3, h4⟩ := h
  have key : ∀ z c d : K, ∃ a, op.add (op.mul (.fin z) (.fin c)) (.fin d) = .fin a := by
    intro z c d
    obtain ⟨b, hb⟩ := hop.mul z c
    rw [hb]
    exact hop.add b d
  by_cases ha : adptv = 1
  · refine ⟨⟨h1, fun a ham => ?_⟩, ⟨h2, fun a ham => ?_⟩⟩
    · obtain ⟨u, _, _, rfl⟩ := (h3 ha).1 a ham
      exact key _ _ _
    · obtain ⟨u, _, _, rfl⟩ := (h3 ha).2 a ham
      exact ⟨u, rfl⟩
  · refine ⟨⟨h1, fun a ham => ?_⟩, ⟨h2, fun a ham => ?_⟩⟩
    · obtain ⟨u, rfl⟩ := h4 ha a (List.mem_append_left _ ham)
      exact key _ _ _
    · obtain ⟨u, rfl⟩ := h4 ha a (List.mem_append_right _ ham)
      exact key _ _ _

omit [IsStrictOrderedRing K] in
theorem wp_drawVariant {g : Gen K σ} {rep : K → Prop} (hg : g.Lawful rep) {allowed : List Nat} (hne : allowed ≠ []) (hsz : allowed.length < 2 ^ 64)
    {E : Exn → σ → Prop} {s : σ} : wp (drawVariant g allowed) (fun w _ => w ∈ allowed) E s := by
  have hpos : 0 < allowed.length := List.length_pos_iff.mpr hne
  unfold drawVariant
  have e : (allowed.length + (2 ^ 64 - 1)) % 2 ^ 64 = allowed.length - 1 := by omega
  rw [wp_bind, e]
  refine Gen.wp_drawNat hg (Nat.zero_le _) (fun k s' _ hk => ?_)
  rw [wp_lift_get (by omega)]
  exact List.getElem_mem _

omit [IsStrictOrderedRing K] in
theorem wp_initV {g : Gen K σ} {rep : K → Prop} (hg : g.Lawful rep) {allowed : List Nat} (hne : allowed ≠ []) (hsz : allowed.length < 2 ^ 64)
    {NP : Nat} {E : Exn → σ → Prop} {s : σ} :
    wp ((List.range NP).foldlM (initVStep g allowed) []) (fun V _ => V.length = NP ∧ ∀ w ∈ V, w ∈ allowed) E s := by
  refine wp_range (fun j (V : List Nat) _ => V.length = j ∧ ∀ w ∈ V, w ∈ allowed) NP _ s ⟨rfl, by simp⟩ ?_
  rintro j V s1 _ ⟨h1, h2⟩
  unfold initVStep
  rw [wp_bind]
  refine (wp_drawVariant hg hne hsz).mono (fun w s' hw => ?_) (fun _ _ h => h)
  rw [wp_pure]
  refine ⟨by simp [h1], fun a ha => ?_⟩
  rcases List.mem_append.mp ha with ha | ha
  · exact h2 a ha
  · rw [List.mem_singleton.mp ha]; exact hw

end

end Verif.Props
