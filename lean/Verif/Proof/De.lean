import Verif.Model.De
import Verif.Proof.Evolve

/-!
# Helper lemmas for `Verif.Props.De`
-/

set_option autoImplicit false

namespace Verif.Props

open Verif Run Prob Pop Alg

variable {K σ : Type} [Field K] [LinearOrder K]

omit [LinearOrder K] in
theorem allFin_set {x : List (Fl K)} {i : Nat} {a : K} (h : AllFin x) : AllFin (x.set i (.fin a)) := by
  intro w hw
  rcases List.mem_or_eq_of_mem_set hw with hw | hw
  · exact h w hw
  · exact ⟨a, hw⟩

omit [LinearOrder K] in
theorem allFin_get {x : List (Fl K)} {i : Nat} (h : AllFin x) (hi : i < x.length) :
    ∃ a, Outcome.get x i = .ok (.fin a) := by
  obtain ⟨a, ha⟩ := h _ (List.getElem_mem hi)
  exact ⟨a, by rw [Outcome.get_of_lt hi, ha]⟩

/-- `k` indexes below `NP`. -/
theorem wp_pickIdx {g : Gen K σ} {rep : K → Prop} (hg : g.Lawful rep) {NP k : Nat} (hk : k ≤ NP) {s : σ}
    {Q : List Nat → σ → Prop} {E : Exn → σ → Prop}
    (hq : ∀ r s', r.length = k → (∀ i ∈ r, i < NP) → Q r s') : wp (pickIdx g NP k) Q E s := by
  unfold pickIdx
  rw [wp_bind]
  refine (wp_range (fun j (b : List Nat × List Nat) _ => b.1.length = j ∧ (∀ i ∈ b.1, i < NP) ∧ b.2.length = NP ∧
    ∀ i ∈ b.2, i < NP) k _ s ⟨rfl, by simp, by simp, by simp⟩ ?_).mono ?_ (fun _ _ h => h)
  · rintro j b s hj ⟨h1, h2, h3, h4⟩
    unfold pickStep
    rw [wp_bind]
    refine Gen.wp_drawNat hg (by omega) (fun idx s' _ hi => ?_)
    rw [wp_bind, wp_lift_get (by omega), wp_bind, wp_lift_get (by omega), wp_bind, wp_lift_set (by omega), wp_bind,
      wp_lift_set (by rw [List.length_set]; omega), wp_pure]
    refine ⟨by simp [h1], ?_, by simp [h3], ?_⟩
    · intro i hi'
      rcases List.mem_append.mp hi' with hi' | hi'
      · exact h2 i hi'
      · rw [List.mem_singleton.mp hi']; exact h4 _ (List.getElem_mem _)
    · intro i hi'
      rcases List.mem_or_eq_of_mem_set hi' with hi' | rfl
      · rcases List.mem_or_eq_of_mem_set hi' with hi' | rfl
        · exact h4 i hi'
        · exact h4 _ (List.getElem_mem _)
      · exact h4 _ (List.getElem_mem _)
  · rintro b s' ⟨h1, h2, _, _⟩
    exact hq _ _ h1 h2

/-- finite vectors of the same length -/
def DonorsOk (dim NP : Nat) (po : List (List (Fl K))) : Prop :=
  po.length = NP ∧ ∀ x ∈ po, x.length = dim ∧ AllFin x

omit [LinearOrder K] in
theorem donor_fin {dim NP : Nat} {po : List (List (Fl K))} (hp : DonorsOk dim NP po) {r : List Nat}
    (hr : ∀ i ∈ r, i < NP) {k n : Nat} (hk : k < r.length) (hn : n < dim) : ∃ a, donor po r k n = .ok (.fin a) := by
  unfold donor
  have h1 : r[k] < po.length := by rw [hp.1]; exact hr _ (List.getElem_mem hk)
  have h2 := hp.2 _ (List.getElem_mem h1)
  obtain ⟨a, ha⟩ := allFin_get h2.2 (i := n) (by rw [h2.1]; exact hn)
  exact ⟨a, by rw [Outcome.get_of_lt hk, Outcome.bind_ok, Outcome.get_of_lt h1, Outcome.bind_ok, ha]⟩

/-- What the crossover loops need of the mutation: finite values from finite vectors. -/
def GeneOk (dim : Nat) (gene : List (Fl K) → Nat → Outcome (Fl K)) : Prop :=
  ∀ tmp n, tmp.length = dim → n < dim → AllFin tmp → ∃ a, gene tmp n = .ok (.fin a)

omit [LinearOrder K] in
theorem deGene_fin [LinearOrder K] {op : Fl.Ops K} (hop : NoOverflow op) {F : K} {variant dim NP : Nat} {gb : List (Fl K)}
    (hgb : gb.length = dim ∧ AllFin gb) {po : List (List (Fl K))} (hp : DonorsOk dim NP po) {r : List Nat}
    (hr : r.length = 5 ∧ ∀ i ∈ r, i < NP) : GeneOk dim (deGene op (.fin F) variant gb po r) := by
  intro tmp n hl hn ht
  obtain ⟨t, e1⟩ := allFin_get ht (i := n) (by omega)
  obtain ⟨b, e2⟩ := allFin_get hgb.2 (i := n) (by omega)
  obtain ⟨p0, e3⟩ := donor_fin hp hr.2 (k := 0) (by omega) hn
  obtain ⟨p1, e4⟩ := donor_fin hp hr.2 (k := 1) (by omega) hn
  obtain ⟨p2, e5⟩ := donor_fin hp hr.2 (k := 2) (by omega) hn
  obtain ⟨p3, e6⟩ := donor_fin hp hr.2 (k := 3) (by omega) hn
  obtain ⟨p4, e7⟩ := donor_fin hp hr.2 (k := 4) (by omega) hn
  unfold deGene
  rw [e1, Outcome.bind_ok, e2, Outcome.bind_ok, e3, Outcome.bind_ok, e4, Outcome.bind_ok, e5, Outcome.bind_ok, e6,
    Outcome.bind_ok, e7, Outcome.bind_ok]
  have hsum : ∃ c, op.sub (op.sub (op.add (.fin p0) (.fin p1)) (.fin p2)) (.fin p3) = .fin c := by
    obtain ⟨c1, h1⟩ := hop.add p0 p1
    obtain ⟨c2, h2⟩ := hop.sub c1 p2
    rw [h1, h2]; exact hop.sub c2 p3
  have hmul : ∀ a b : K, ∃ c, op.mul (.fin F) (op.sub (.fin a) (.fin b)) = .fin c := by
    intro a b
    obtain ⟨c, h⟩ := hop.sub a b
    rw [h]; exact hop.mul F c
  split
  · obtain ⟨c, h⟩ := hmul p1 p2
    rw [h]; obtain ⟨d, hd⟩ := hop.add b c; exact ⟨d, by rw [hd]⟩
  · split
    · obtain ⟨c, h⟩ := hmul p1 p2
      rw [h]; obtain ⟨d, hd⟩ := hop.add p0 c; exact ⟨d, by rw [hd]⟩
    · split
      · obtain ⟨c1, h1⟩ := hmul b t
        obtain ⟨c2, h2⟩ := hmul p0 p1
        obtain ⟨c3, h3⟩ := hop.add t c1
        obtain ⟨c4, h4⟩ := hop.add c3 c2
        exact ⟨c4, by rw [h1, h2, h3, h4]⟩
      · obtain ⟨c1, h1⟩ := hsum
        obtain ⟨c2, h2⟩ := hop.mul c1 F
        split
        · obtain ⟨c3, h3⟩ := hop.add b c2
          exact ⟨c3, by rw [h1, h2, h3]⟩
        · obtain ⟨c3, h3⟩ := hop.add p4 c2
          exact ⟨c3, by rw [h1, h2, h3]⟩

theorem wp_draw01' {g : Gen K σ} {Q : Fl K → σ → Prop} {E : Exn → σ → Prop} {e : σ} (h : ∀ v e', Q v e') :
    wp g.draw01 Q E e := h _ _

theorem wp_expCross {g : Gen K σ} {CR : Fl K} {dim : Nat} {gene : List (Fl K) → Nat → Outcome (Fl K)}
    (hgene : GeneOk dim gene) {Q : List (Fl K) → σ → Prop} {E : Exn → σ → Prop}
    (hq : ∀ y s', y.length = dim → AllFin y → Q y s') :
    ∀ (k : Nat) (tmp : List (Fl K)) (n : Nat) (s : σ), tmp.length = dim → n < dim → AllFin tmp →
      wp (expCross g CR dim gene k tmp n) Q E s := by
  intro k
  induction k with
  | zero => intro tmp n s hl _ ht; exact hq tmp s hl ht
  | succ k ih =>
    intro tmp n s hl hn ht
    obtain ⟨a, ha⟩ := hgene tmp n hl hn ht
    rw [expCross, wp_bind, ha, wp_lift_ok, wp_bind, wp_lift_set (by omega), wp_bind]
    refine wp_draw01' (fun u s' => ?_)
    split
    · exact ih _ _ _ (by simpa using hl) (Nat.mod_lt _ (by omega)) (allFin_set ht)
    · exact hq _ _ (by simpa using hl) (allFin_set ht)

theorem wp_binCross {g : Gen K σ} {CR : Fl K} {dim : Nat} {gene : List (Fl K) → Nat → Outcome (Fl K)}
    (hgene : GeneOk dim gene) {Q : List (Fl K) → σ → Prop} {E : Exn → σ → Prop}
    (hq : ∀ y s', y.length = dim → AllFin y → Q y s') {tmp : List (Fl K)} {n : Nat} {s : σ} (hl : tmp.length = dim)
    (hn : n < dim) (ht : AllFin tmp) : wp (binCross g CR dim gene tmp n) Q E s := by
  unfold binCross
  rw [wp_bind]
  refine (wp_range (fun _ (b : List (Fl K) × Nat) _ => b.1.length = dim ∧ b.2 < dim ∧ AllFin b.1) dim _ s
    ⟨hl, hn, ht⟩ ?_).mono (fun b s' h => hq b.1 s' h.1 h.2.2) (fun _ _ h => h)
  rintro i b s hi ⟨h1, h2, h3⟩
  unfold binStep
  rw [wp_bind]
  refine wp_draw01' (fun u s' => ?_)
  split
  · obtain ⟨a, ha⟩ := hgene b.1 b.2 h1 h2 h3
    rw [wp_bind, ha, wp_lift_ok, wp_bind, wp_lift_set (by omega), wp_pure]
    exact ⟨by simpa using h1, Nat.mod_lt _ (by omega), allFin_set h3⟩
  · exact ⟨h1, Nat.mod_lt _ (by omega), h3⟩

/-- Every candidate lies inside the bounds. -/
theorem wp_deCandidate {g : Gen K σ} {rep : K → Prop} (hg : g.Lawful rep) {op : Fl.Ops K} (hop : NoOverflow op)
    {P : AProb K} (hP : FiniteBox P) {A : De K} {F : K} (hF : A.F = .fin F) {gb : List (Fl K)}
    (hgb : InBox P.lb P.ub 0 gb) {po : List (List (Fl K))} {NP i : Nat} (hlen : po.length = NP)
    (hpo : ∀ x ∈ po, InBox P.lb P.ub 0 x) (h5 : 5 ≤ NP) (hi : i < NP) {s : σ} {Q : List (Fl K) → σ → Prop}
    {E : Exn → σ → Prop} (hq : ∀ y s', InBox P.lb P.ub 0 y → Q y s') :
    wp (deCandidate g op A P.lb P.ub gb po NP i) Q E s := by
  have hdim : 0 < P.lb.length := List.length_pos_iff.mpr hP.bounds.nonempty
  unfold deCandidate
  rw [wp_bind]
  refine wp_pickIdx hg h5 (fun r s1 h1 h2 => ?_)
  rw [wp_bind, wp_lift_get (by omega), wp_bind]
  refine Gen.wp_drawNat hg (by omega) (fun n s2 _ hn => ?_)
  have hx := hpo _ (List.getElem_mem (l := po) (n := i) (by omega))
  have hgene : GeneOk P.lb.length (deGene op A.F A.variant gb po r) := by
    rw [hF]
    exact deGene_fin hop ⟨hgb.1, allFin_of_box hP hgb⟩
      ⟨hlen, fun x hx => ⟨(hpo x hx).1, allFin_of_box hP (hpo x hx)⟩⟩ ⟨h1, h2⟩
  rw [wp_bind, deCross]
  split
  · exact wp_expCross hgene (fun y s3 hy1 hy2 => wp_repair hP hg hop hy1 hy2 hq) _ _ _ _ hx.1 (by omega) (allFin_of_box hP hx)
  · exact wp_binCross hgene (fun y s3 hy1 hy2 => wp_repair hP hg hop hy1 hy2 hq) hx.1 (by omega) (allFin_of_box hP hx)

/-- The exit conditions can be evaluated. -/
theorem flatEnough_ok {v : Env K σ} {P : AProb K} (hnobj : P.info.nobj = 1) (hnc : P.info.nc = 0) {p : Pop.State K}
    (hi : WellFormed P.info p) (hne : p.id ≠ []) (hsz : p.id.length ≤ 2 ^ 63) (xtol ftol : Fl K) :
    ∃ b, flatEnough v P xtol ftol p = .ok b := by
  have hfl := hi.fs
  have hxl := hi.xs
  have hpos : 0 < p.id.length := List.length_pos_iff.mpr hne
  have hnf : P.info.nf = 1 := by simp only [Info.nf, Info.nc] at *; omega
  obtain ⟨⟨bi, hb1, hb2⟩, ⟨wi, hw1, hw2⟩⟩ := idx_lt (srt := v.srt) (sq := v.sq) hnobj hnc
    (fs := p.f) (fun h => by rw [h] at hfl; simp at hfl; omega) (by omega) p.tol
  unfold flatEnough
  rw [hb1, Outcome.bind_ok, hw1, Outcome.bind_ok, Outcome.get_of_lt (show wi < p.x.length by omega), Outcome.bind_ok,
    Outcome.get_of_lt (show bi < p.x.length by omega), Outcome.bind_ok]
  have hfold : ∀ (l : List Nat), (∀ i ∈ l, i < P.info.nx) → ∀ dx : Fl K,
      ∃ y, l.foldlM (flatStep v.op (p.x[wi]'(by omega)) (p.x[bi]'(by omega))) dx = .ok y := by
    intro l
    induction l with
    | nil => intro _ dx; exact ⟨dx, rfl⟩
    | cons i l ih =>
      intro hl dx
      have h1 := hi.dimX _ (List.getElem_mem (l := p.x) (n := wi) (by omega))
      have h2 := hi.dimX _ (List.getElem_mem (l := p.x) (n := bi) (by omega))
      have hin := hl i (by simp)
      rw [List.foldlM_cons]
      unfold flatStep
      rw [Outcome.get_of_lt (by omega), Outcome.bind_ok, Outcome.get_of_lt (by omega), Outcome.bind_ok, Outcome.bind_ok]
      exact ih (fun j hj => hl j (by simp [hj])) _
  obtain ⟨y, hy⟩ := hfold (List.range P.info.nx) (by simp) (.fin 0)
  rw [hy, Outcome.bind_ok]
  split
  · exact ⟨true, rfl⟩
  · have h1 := hi.dimF _ (List.getElem_mem (l := p.f) (n := wi) (by omega))
    have h2 := hi.dimF _ (List.getElem_mem (l := p.f) (n := bi) (by omega))
    rw [Outcome.get_of_lt hw2, Outcome.bind_ok, Outcome.get_of_lt hb2, Outcome.bind_ok,
      Outcome.get_of_lt (show 0 < (p.f[wi]).length by omega), Outcome.bind_ok,
      Outcome.get_of_lt (show 0 < (p.f[bi]).length by omega), Outcome.bind_ok]
    exact ⟨_, rfl⟩

end Verif.Props
