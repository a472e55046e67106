import Verif.Model.Sga
import Verif.Props.Genetic
import Verif.Props.Sea

/-!
# Proofs about sga: the offspring
-/

set_option autoImplicit false

namespace Verif.Props

open Verif Run Prob Pop Alg Genetic

variable {K σ : Type} [Field K] [LinearOrder K]

/-! ## Lists -/

theorem gather_spec {α : Type} (xs : List α) (idx : List Nat) (h : ∀ i ∈ idx, i < xs.length) :
    ∃ l, gather xs idx = .ok l ∧ l.length = idx.length ∧ ∀ j i : Nat, idx[j]? = some i → l[j]? = xs[i]? := by
  have := Outcome.foldlM_sat (f := fun acc i => do let a ← Outcome.get xs i; .ok (acc ++ [a]))
    (fun (p : List Nat) (l : List α) => l.length = p.length ∧ ∀ j i : Nat, p[j]? = some i → l[j]? = xs[i]?)
    idx [] [] ⟨rfl, by simp⟩ ?_
  · obtain ⟨l, h1, h2⟩ := this
    exact ⟨l, h1, by simpa using h2⟩
  · intro p i q l hl hI
    have hi : i < xs.length := h i (by rw [hl]; simp)
    simp only [List.nil_append] at hI ⊢
    rw [Outcome.get_of_lt hi, Outcome.bind_ok, Outcome.sat_ok]
    refine ⟨by simp [hI.1], ?_⟩
    intro j k hj
    by_cases e : j < p.length
    · rw [List.getElem?_append_left (by omega)] at hj ⊢
      · exact hI.2 j k hj
    · have e' : j = p.length := by
        have := (List.getElem?_eq_some_iff.mp hj).1
        simp at this; omega
      subst e'
      simp at hj
      subst hj
      rw [List.getElem?_append_right (by omega), hI.1, List.getElem?_eq_getElem hi]
      simp

theorem gather_mem {α : Type} {xs : List α} {idx : List Nat} {l : List α} (hl : l.length = idx.length)
    (h : ∀ j i : Nat, idx[j]? = some i → l[j]? = xs[i]?) {a : α} (ha : a ∈ l) : a ∈ xs := by
  obtain ⟨j, hj, rfl⟩ := List.getElem_of_mem ha
  have := h j _ (List.getElem?_eq_getElem (show j < idx.length by omega))
  rw [List.getElem?_eq_getElem hj] at this
  exact List.mem_of_getElem? this.symm

omit [LinearOrder K] in
theorem wp_shuffle [LinearOrder K] {α : Type} {d : Dist K σ} (hd : d.Lawful) {xs : List α} {Q : List α → σ → Prop} {E : Exn → σ → Prop} {e : σ}
    (h : ∀ l e', l.length = xs.length → (∀ a ∈ l, a ∈ xs) → Q l e') : wp (d.shuffle xs) Q E e := by
  have hp := hd.perm_perm xs.length e
  obtain ⟨l, h1, h2, h3⟩ := gather_spec xs (d.perm xs.length e).1 (fun i hi => by simpa using hp.mem_iff.mp hi)
  unfold Dist.shuffle wp
  dsimp only
  rw [h1]
  exact h l _ (by rw [h2, hp.length_eq]; simp) (fun a ha => gather_mem h2 h3 ha)

/-! ## Selection -/

theorem objLess_iff (F : List (List (Fl K))) (a b : Nat) : objLess F a b = true ↔ obj0 F a < obj0 F b := by
  unfold objLess; exact Fl.lessThanF_iff _ _

theorem sort_obj {srt : (Nat → Nat → Bool) → List Nat → List Nat} (hs : ValidSort srt) (F : List (List (Fl K))) :
    ∃ o, stdSort srt (objLess F) (List.range F.length) = .ok o ∧ o.Perm (List.range F.length) ∧
      o.Pairwise (fun a b => obj0 F a ≤ obj0 F b) := by
  obtain ⟨o, h1, h2⟩ := stdSort_sat hs (lt := objLess F) (l := List.range F.length)
    (swoOn_of_key (obj0 F) (fun a _ b _ => objLess_iff F a b))
  refine ⟨o, h1, h2.perm, h2.sorted.imp (fun {a b} h => ?_)⟩
  rw [Bool.eq_false_iff, ne_eq, objLess_iff] at h
  exact not_lt.mp h

/-- indexes below `n` -/
def IdxIn (n : Nat) (l : List Nat) : Prop := ∀ i ∈ l, i < n

theorem idxIn_set {n : Nat} {l : List Nat} (h : IdxIn n l) {i a : Nat} (ha : a < n) : IdxIn n (l.set i a) := by
  intro j hj
  rcases List.mem_or_eq_of_mem_set hj with h' | h'
  · exact h j h'
  · omega

theorem idxIn_range (n : Nat) : IdxIn n (List.range n) := fun i hi => by simpa using hi

section
variable [IsStrictOrderedRing K]

omit [IsStrictOrderedRing K] in
theorem wp_tournament {g : Gen K σ} {rep : K → Prop} (hg : g.Lawful rep) {paramS : Nat} {F : List (List (Fl K))} (h0 : 0 < paramS)
    (hS : paramS ≤ F.length) {s : List Nat × List Nat} (h1 : IdxIn F.length s.1) (h2 : IdxIn F.length s.2)
    (h3 : s.2.length = F.length) {E : Exn → σ → Prop} (k : Nat) (e : σ) :
    wp (tournament g paramS F s k) (fun r _ => r.1.length = s.1.length + 1 ∧ IdxIn F.length r.1 ∧ IdxIn F.length r.2 ∧
      r.2.length = F.length) E e := by
  unfold tournament
  rw [wp_bind]
  refine (wp_range (fun _ (b : List Nat) _ => IdxIn F.length b ∧ b.length = F.length) paramS s.2 e ⟨h2, h3⟩ ?_).mono ?_ (fun _ _ h => h)
  · rintro i b e' hi ⟨hb1, hb2⟩
    unfold tourSwap
    rw [wp_bind]
    refine Gen.wp_drawNat hg (by omega) (fun idx e'' h4 h5 => ?_)
    rw [wp_bind, wp_lift_get (by omega), wp_bind, wp_lift_get (by omega), wp_bind, wp_lift_set (by omega), wp_lift_set (by simp; omega)]
    exact ⟨idxIn_set (idxIn_set hb1 (hb1 _ (List.getElem_mem _))) (hb1 _ (List.getElem_mem _)), by simpa using hb2⟩
  · rintro b e' ⟨hb1, hb2⟩
    rw [wp_bind, wp_lift_get (by omega), wp_bind]
    have hw : ∀ (l : List Nat), (∀ i ∈ l, i < paramS) → ∀ w, w < F.length → ((l).foldlM (tourBest F b) w).Sat (fun w => w < F.length) := by
      intro l
      induction l with
      | nil => intro _ w hw; exact Outcome.sat_ok.mpr hw
      | cons i l ih =>
        intro hl w hw
        have hi := hl i (by simp)
        have hbi := hb1 _ (List.getElem_mem (l := b) (n := i) (by omega))
        rw [List.foldlM_cons]
        refine Outcome.Sat.bind (P := fun w => w < F.length) ?_ (fun w' hw' => ih (fun j hj => hl j (List.mem_cons_of_mem _ hj)) w' hw')
        unfold tourBest
        rw [Outcome.get_of_lt (by omega), Outcome.bind_ok, Outcome.get_of_lt hbi, Outcome.bind_ok, Outcome.get_of_lt hw, Outcome.bind_ok, Outcome.sat_ok]
        split
        · exact hbi
        · exact hw
    obtain ⟨w, hw1, hw2⟩ := hw (List.range' 1 (paramS - 1)) (fun i hi => by simp [List.mem_range'_1] at hi; omega) _
      (hb1 _ (List.getElem_mem (l := b) (n := 0) (by omega)))
    rw [hw1, wp_lift_ok, wp_pure]
    refine ⟨by simp, ?_, hb1, hb2⟩
    intro i hi
    rcases List.mem_append.mp hi with h | h
    · exact h1 i h
    · rw [List.mem_singleton.mp h]; exact hw2

theorem wp_sgaSelect {v : SgaEnv K σ} {rep : K → Prop} (hg : v.g.Lawful rep) (hs : ValidSort v.srt) {A : Sga K} {F : List (List (Fl K))}
    (h0 : 0 < A.paramS) (hS : A.paramS ≤ F.length) {Q : List Nat → σ → Prop} {E : Exn → σ → Prop} {e : σ}
    (hq : ∀ l e', l.length = F.length → IdxIn F.length l → Q l e') : wp (sgaSelect v A F) Q E e := by
  unfold sgaSelect
  cases A.sel with
  | truncated =>
    obtain ⟨o, h1, h2, -⟩ := sort_obj hs F
    dsimp only
    rw [wp_bind, h1, wp_lift_ok]
    unfold truncate
    have hol : o.length = F.length := by rw [h2.length_eq]; simp
    obtain ⟨l, h3, h4, h5⟩ := gather_spec o ((List.range F.length).map (fun i => i % A.paramS)) (by
      intro i hi
      obtain ⟨j, _, rfl⟩ := List.mem_map.mp hi
      have := Nat.mod_lt j h0
      omega)
    rw [h3, wp_lift_ok]
    refine hq l e (by simpa using h4) (fun i hi => ?_)
    simpa using h2.mem_iff.mp (gather_mem h4 h5 hi)
  | tournament =>
    dsimp only
    rw [wp_bind]
    refine (wp_range (fun k (r : List Nat × List Nat) _ => r.1.length = k ∧ IdxIn F.length r.1 ∧ IdxIn F.length r.2 ∧
      r.2.length = F.length) F.length _ e ⟨rfl, by simp [IdxIn], idxIn_range _, by simp⟩ ?_).mono ?_ (fun _ _ h => h)
    · rintro i r e' hi ⟨h1, h2, h3, h4⟩
      refine (wp_tournament hg h0 hS h2 h3 h4 i e').mono ?_ (fun _ _ h => h)
      rintro r' e'' ⟨h5, h6, h7, h8⟩
      exact ⟨by omega, h6, h7, h8⟩
    · rintro r e' ⟨h1, h2, h3, h4⟩
      exact hq _ _ h1 h2

/-! ## Crossover -/

omit [IsStrictOrderedRing K] in
theorem wp_expCross_at {g : Gen K σ} {CR : Fl K} {dim : Nat} {gene : List (Fl K) → Nat → Outcome (Fl K)} {R : Nat → Fl K → Prop}
    (hgene : ∀ tmp n, n < dim → ∃ w, gene tmp n = .ok w ∧ R n w) {Q : List (Fl K) → σ → Prop} {E : Exn → σ → Prop}
    (hq : ∀ y s', AllAt R dim y → Q y s') :
    ∀ (k : Nat) (tmp : List (Fl K)) (n : Nat) (s : σ), AllAt R dim tmp → n < dim →
      wp (expCross g CR dim gene k tmp n) Q E s := by
  intro k
  induction k with
  | zero => intro tmp n s hl _; exact hq tmp s hl
  | succ k ih =>
    intro tmp n s hl hn
    obtain ⟨a, ha, hR⟩ := hgene tmp n hn
    rw [expCross, wp_bind, ha, wp_lift_ok, wp_bind, wp_lift_set (by rw [hl.1]; exact hn), wp_bind]
    refine wp_draw01' (fun u s' => ?_)
    split
    · exact ih _ _ _ (allAt_set hl hR) (Nat.mod_lt _ (by omega))
    · exact hq _ _ (allAt_set hl hR)

omit [IsStrictOrderedRing K] in
theorem wp_binCross_at {g : Gen K σ} {CR : Fl K} {dim : Nat} {gene : List (Fl K) → Nat → Outcome (Fl K)} {R : Nat → Fl K → Prop}
    (hgene : ∀ tmp n, n < dim → ∃ w, gene tmp n = .ok w ∧ R n w) {Q : List (Fl K) → σ → Prop} {E : Exn → σ → Prop}
    (hq : ∀ y s', AllAt R dim y → Q y s') {tmp : List (Fl K)} {n : Nat} {s : σ} (hl : AllAt R dim tmp) (hn : n < dim) :
    wp (binCross g CR dim gene tmp n) Q E s := by
  unfold binCross
  rw [wp_bind]
  refine (wp_range (fun _ (b : List (Fl K) × Nat) _ => AllAt R dim b.1 ∧ b.2 < dim) dim _ s
    ⟨hl, hn⟩ ?_).mono (fun b s' h => hq b.1 s' h.1) (fun _ _ h => h)
  rintro i b s hi ⟨h1, h2⟩
  unfold binStep
  rw [wp_bind]
  refine wp_draw01' (fun u s' => ?_)
  split
  · obtain ⟨a, ha, hR⟩ := hgene b.1 b.2 h2
    rw [wp_bind, ha, wp_lift_ok, wp_bind, wp_lift_set (by rw [h1.1]; exact h2), wp_pure]
    exact ⟨allAt_set h1 hR, Nat.mod_lt _ (by omega)⟩
  · exact ⟨h1, Nat.mod_lt _ (by omega)⟩

theorem wp_mate {g : Gen K σ} {rep : K → Prop} (hg : g.Lawful rep) {A : Sga K} {dim : Nat} (hdim : 0 < dim) {R : Nat → Fl K → Prop}
    {child p2 : List (Fl K)} (hc : AllAt R dim child) (hp : AllAt R dim p2) {E : Exn → σ → Prop} (e : σ) :
    wp (mate g A dim child p2) (fun y _ => AllAt R dim y) E e := by
  have hgene : ∀ (tmp : List (Fl K)) (n : Nat), n < dim → ∃ w, (fun (_ : List (Fl K)) n => Outcome.get p2 n) tmp n = .ok w ∧ R n w := by
    intro tmp n hn
    have : n < p2.length := by rw [hp.1]; exact hn
    exact ⟨_, Outcome.get_of_lt this, allAt_get hp this⟩
  unfold mate
  cases A.cross with
  | exponential =>
    dsimp only
    rw [wp_bind]
    refine Gen.wp_drawNat hg (by omega) (fun n e' _ h2 => ?_)
    exact wp_expCross_at hgene (fun y _ h => h) _ _ _ _ hc (by omega)
  | binomial =>
    dsimp only
    rw [wp_bind]
    refine Gen.wp_drawNat hg (by omega) (fun n e' _ h2 => ?_)
    exact wp_binCross_at hgene (fun y _ h => h) hc (by omega)
  | single =>
    dsimp only
    rw [wp_bind]
    refine wp_draw01' (fun u e' => ?_)
    split
    · rw [wp_bind]
      refine Gen.wp_drawNat hg (by omega) (fun n e' _ h2 => ?_)
      have key : ∀ (l : List Nat), (∀ i ∈ l, i < dim) → ∀ y, AllAt R dim y → (l.foldlM (copyGene p2) y).Sat (AllAt R dim) := by
        intro l
        induction l with
        | nil => intro _ y hy; exact Outcome.sat_ok.mpr hy
        | cons i l ih =>
          intro hl y hy
          have hi := hl i (by simp)
          rw [List.foldlM_cons]
          refine Outcome.Sat.bind (P := AllAt R dim) ?_ (fun w' hw' => ih (fun j hj => hl j (List.mem_cons_of_mem _ hj)) w' hw')
          unfold copyGene
          have h3 : i < p2.length := by rw [hp.1]; exact hi
          rw [Outcome.get_of_lt h3, Outcome.bind_ok, Outcome.set_of_lt (by rw [hy.1]; exact hi), Outcome.sat_ok]
          exact allAt_set hy (allAt_get hp h3)
      obtain ⟨y, h3, h4⟩ := key (List.range' n (dim - n)) (fun i hi => by simp [List.mem_range'_1] at hi; omega) child hc
      rw [h3, wp_lift_ok]
      exact h4
    · exact hc
  | sbx => exact hc

/-- `n` vectors with the property `B` -/
def Fam (B : List (Fl K) → Prop) (n : Nat) (X : List (List (Fl K))) : Prop := X.length = n ∧ ∀ x ∈ X, B x

omit [Field K] [LinearOrder K] [IsStrictOrderedRing K] in
theorem fam_set {B : List (Fl K) → Prop} {n : Nat} {X : List (List (Fl K))} (h : Fam B n X) {i : Nat} {x : List (Fl K)} (hx : B x) :
    Fam B n (X.set i x) := by
  refine ⟨by simpa using h.1, fun y hy => ?_⟩
  rcases List.mem_or_eq_of_mem_set hy with h' | rfl
  · exact h.2 y h'
  · exact hx

/-- What the simulated binary crossover needs of the arithmetic: from two different numbers within the bounds it does
not compute NaN. -/
def SbxNum (v : SgaEnv K σ) (eta : Fl K) : Prop :=
  ∀ l u a b r : K, l ≤ a → a ≤ u → l ≤ b → b ≤ u → 0 ≤ r → r ≤ 1 → Fl.gt (Fl.abs (v.op.sub (.fin a) (.fin b))) tiny = true →
    let y := if Fl.lt (Fl.fin a) (.fin b) then (Fl.fin a, Fl.fin b) else (.fin b, .fin a)
    (sbxValues v.pw v.op (.fin l) (.fin u) y.1 y.2 eta (.fin r)).1 ≠ .nan ∧
    (sbxValues v.pw v.op (.fin l) (.fin u) y.1 y.2 eta (.fin r)).2 ≠ .nan

theorem wp_sbxPair {v : SgaEnv K σ} {rep : K → Prop} (hg : v.g.Lawful rep) {P : AProb K} (hP : FiniteBox P) {A : Sga K}
    (hsbx : SbxNum v A.etaC) {n : Nat} {X : List (List (Fl K))} (hX : Fam (InBox P.lb P.ub P.nix) n X) {k : Nat} (hk : 2 * k + 1 < n)
    {E : Exn → σ → Prop} (e : σ) :
    wp (sbxPair v A P.lb P.ub P.nix X k) (fun Y _ => Fam (InBox P.lb P.ub P.nix) n Y) E e := by
  have hl := hX.1
  have h1 := hX.2 _ (List.getElem_mem (l := X) (n := 2 * k) (by omega))
  have h2 := hX.2 _ (List.getElem_mem (l := X) (n := 2 * k + 1) (by omega))
  unfold sbxPair
  rw [wp_bind, wp_lift_get (by omega), wp_bind, wp_lift_get (by omega), wp_bind]
  rw [inBox_iff] at h1 h2
  refine (wp_sbxImpl hg _ h1 h2 rfl hP.bounds.len.symm hP.bounds.nixLe ?_ e).mono ?_ (fun _ _ h => h.elim)
  · intro i a b l u r hi ha hb hl hu hr0 hr1 hgt hne
    obtain ⟨n1, n2, hle⟩ := hP.bounds.ordered i l u hl hu
    obtain ⟨l', rfl⟩ := hP.finL l (List.mem_of_getElem? hl)
    obtain ⟨u', rfl⟩ := hP.finU u (List.mem_of_getElem? hu)
    obtain ⟨a', rfl, ha1, ha2⟩ := between_cases (h1.2 i a ha _ _ hl hu).1 (h1.2 i a ha _ _ hl hu).2.1
    obtain ⟨b', rfl, hb1, hb2⟩ := between_cases (h2.2 i b hb _ _ hl hu).1 (h2.2 i b hb _ _ hl hu).2.1
    have hval := hsbx l' u' a' b' r ha1 ha2 hb1 hb2 hr0 hr1 hgt
    have c1 := clamp_spec hle n2 hval.1
    have c2 := clamp_spec hle n2 hval.2
    constructor <;> intro l u hl' hu' <;> rw [hl] at hl' <;> rw [hu] at hu' <;> cases hl' <;> cases hu'
    · exact ⟨c1.1, c1.2, fun h => absurd h (by omega)⟩
    · exact ⟨c2.1, c2.2, fun h => absurd h (by omega)⟩
  · rintro c e' ⟨h3, h4⟩
    rw [wp_bind, wp_lift_set (by omega), wp_lift_set (by simp; omega)]
    exact fam_set (fam_set hX (inBox_iff.mpr h3)) (inBox_iff.mpr h4)

theorem wp_crossOne {g : Gen K σ} {rep : K → Prop} (hg : g.Lawful rep) {A : Sga K} {dim : Nat} (hdim : 0 < dim) {R : Nat → Fl K → Prop}
    {n : Nat} (hn : 2 ≤ n) {XC : List (List (Fl K))} (hXC : Fam (AllAt R dim) n XC) {s : List (List (Fl K)) × List Nat}
    (h1 : Fam (AllAt R dim) n s.1) (h2 : IdxIn n s.2) (h3 : s.2.length = n) {i : Nat} (hi : i < n) {E : Exn → σ → Prop} (e : σ) :
    wp (crossOne g A dim XC s i) (fun r _ => Fam (AllAt R dim) n r.1 ∧ IdxIn n r.2 ∧ r.2.length = n) E e := by
  unfold crossOne
  have hl1 := h1.1
  have hl2 := hXC.1
  rw [wp_bind, wp_lift_get (by omega), wp_bind, wp_lift_get (by omega), wp_bind, wp_lift_set (by omega), wp_bind, wp_lift_set (by simp; omega), wp_bind]
  have hI : IdxIn n ((s.2.set 0 s.2[i]).set i s.2[0]) := idxIn_set (idxIn_set h2 (h2 _ (List.getElem_mem _))) (h2 _ (List.getElem_mem _))
  have hL : ((s.2.set 0 s.2[i]).set i s.2[0]).length = n := by simpa using h3
  generalize (s.2.set 0 s.2[i]).set i s.2[0] = all at hI hL
  refine Gen.wp_drawNat hg (by omega) (fun q e' hq1 hq2 => ?_)
  have hq := hI _ (List.getElem_mem (l := all) (n := q) (by omega))
  rw [wp_bind, wp_lift_get (by omega), wp_bind, wp_lift_get (by omega), wp_bind, wp_lift_get (by omega), wp_bind]
  refine (wp_mate hg hdim (h1.2 _ (List.getElem_mem _)) (hXC.2 _ (List.getElem_mem _)) e').mono ?_ (fun _ _ h => h)
  intro y e'' hy
  rw [wp_bind, wp_lift_set (by omega), wp_pure]
  exact ⟨fam_set h1 hy, hI, hL⟩

theorem wp_sgaCross {v : SgaEnv K σ} {rep : K → Prop} (hg : v.g.Lawful rep) (hd : v.d.Lawful) {P : AProb K} (hP : FiniteBox P) {A : Sga K}
    (hsbx : A.cross = .sbx → SbxNum v A.etaC) {n : Nat} (hn : 2 ≤ n) (heven : A.cross = .sbx → n % 2 = 0) {X : List (List (Fl K))}
    (hX : Fam (InBox P.lb P.ub P.nix) n X) {E : Exn → σ → Prop} (e : σ) :
    wp (sgaCross v A P.lb P.ub P.nix X) (fun Y _ => Fam (InBox P.lb P.ub P.nix) n Y) E e := by
  unfold sgaCross
  have hl := hX.1
  split
  · rename_i hx
    rw [wp_bind]
    refine wp_shuffle hd (fun l e' h1 h2 => ?_)
    have hev := heven hx
    have hF : Fam (InBox P.lb P.ub P.nix) n l := ⟨by omega, fun x hx => hX.2 x (h2 x hx)⟩
    refine wp_range (fun _ (Y : List (List (Fl K))) _ => Fam (InBox P.lb P.ub P.nix) n Y) _ l e' hF ?_
    intro k Y e'' hk hY
    exact wp_sbxPair hg hP (hsbx hx) hY (by omega) e''
  · rw [wp_bind]
    have hdim : 0 < P.lb.length := List.length_pos_iff.mpr hP.bounds.nonempty
    have hX' : Fam (AllAt (fun i v => ∀ l u : Fl K, P.lb[i]? = some l → P.ub[i]? = some u →
      InRange l u (P.lb.length - P.nix ≤ i) v) P.lb.length) n X := ⟨hX.1, fun x hx => inBox_iff.mp (hX.2 x hx)⟩
    refine (wp_range (fun _ (r : List (List (Fl K)) × List Nat) _ => Fam (AllAt (fun i v => ∀ l u : Fl K, P.lb[i]? = some l → P.ub[i]? = some u →
      InRange l u (P.lb.length - P.nix ≤ i) v) P.lb.length) n r.1 ∧ IdxIn n r.2 ∧ r.2.length = n) _ _ e
      ⟨hX', by rw [← hl]; exact idxIn_range _, by simpa using hl⟩ ?_).mono ?_ (fun _ _ h => h)
    · rintro i r e' hi ⟨h1, h2, h3⟩
      exact wp_crossOne hg hdim hn hX' h1 h2 h3 (by omega) e'
    · rintro r e' ⟨h1, -, -⟩
      exact ⟨h1.1, fun x hx => inBox_iff.mpr (h1.2 x hx)⟩

/-! ## Mutation -/

/-- a finite value, integral if `isInt` -/
def Num (isInt : Prop) (w : Fl K) : Prop := ∃ a : K, w = .fin a ∧ (isInt → ∃ z : ℤ, a = z)

/-- What the mutation needs of the arithmetic: no overflow; the sum of two integral numbers and the rounded value of a
number are integral numbers; `pow` yields a number for the arguments of the polynomial mutation. -/
structure MutNum (v : SgaEnv K σ) (A : Sga K) : Prop where
  noOver : NoOverflow v.op
  intAdd : ∀ z w : ℤ, ∃ y : ℤ, v.op.add (.fin (z : K)) (.fin (w : K)) = .fin (y : K)
  round : ∀ a : K, ∃ z : ℤ, v.rd (.fin a) = .fin (z : K)
  one : ∃ a : K, v.op.one = .fin a
  m : ∃ p : K, A.m = .fin p ∧ 0 ≤ p ∧ p ≤ 1
  paramM : ∃ p : K, A.paramM = .fin p
  pow : A.mutn = .polynomial → ∀ r : K, 0 ≤ r → r ≤ 1 →
    (r ≤ 1 / 2 → ∃ c : K, v.pw (v.op.mul two (.fin r)) (v.op.div v.op.one (v.op.add v.op.one A.paramM)) = .fin c) ∧
    (1 / 2 < r → ∃ c : K, v.pw (v.op.mul two (v.op.sub v.op.one (.fin r))) (v.op.div v.op.one (v.op.add v.op.one A.paramM)) = .fin c)

/-- The integer bounds fit in `int`. -/
def IntBounds (P : AProb K) : Prop :=
  ∀ (i : Nat) (z : ℤ), P.lb.length - P.nix ≤ i → (P.lb[i]? = some (.fin (z : K)) ∨ P.ub[i]? = some (.fin (z : K))) →
    -2 ^ 31 ≤ z ∧ z ≤ 2 ^ 31 - 1

variable [FloorRing K]

theorem castInt_int {z : ℤ} (h1 : -2 ^ 31 ≤ z) (h2 : z ≤ 2 ^ 31 - 1) : castInt (.fin (z : K)) = .ok z := by
  unfold castInt
  simp only [Int.floor_intCast, Int.ceil_intCast, ite_self]
  rw [if_neg (by omega)]

theorem wp_randInt {g : Gen K σ} {rep : K → Prop} (hg : g.Lawful rep) {a b : ℤ} (ha1 : -2 ^ 31 ≤ a) (ha2 : a ≤ 2 ^ 31 - 1)
    (hb1 : -2 ^ 31 ≤ b) (hb2 : b ≤ 2 ^ 31 - 1) (hab : a ≤ b) {E : Exn → σ → Prop} (e : σ) :
    wp (randInt g (.fin (a : K)) (.fin (b : K))) (fun w _ => Num True w) E e := by
  unfold randInt
  rw [wp_bind, castInt_int ha1 ha2, wp_lift_ok, wp_bind, castInt_int hb1 hb2, wp_lift_ok, wp_bind]
  refine Gen.wp_drawInt hg hab (fun z e' _ _ => ?_)
  obtain ⟨w, hw⟩ := hg.ofInt_int z
  exact ⟨g.ofInt z, rfl, fun _ => ⟨w, hw⟩⟩

theorem wp_mutGene {v : SgaEnv K σ} {rep : K → Prop} (hg : v.g.Lawful rep) {P : AProb K} (hP : FiniteBox P) (hint : IntBounds P) {A : Sga K}
    (hm : MutNum v A) {i : Nat} (h1 : i < P.lb.length) (h2 : i < P.ub.length) {x : Fl K} (hx : Num (P.lb.length - P.nix ≤ i) x)
    {E : Exn → σ → Prop} (e : σ) :
    wp (mutGene v A (decide (i < P.lb.length - P.nix)) P.lb[i] P.ub[i] x) (fun w _ => Num (P.lb.length - P.nix ≤ i) w) E e := by
  have hL := List.getElem?_eq_getElem h1
  have hU := List.getElem?_eq_getElem h2
  obtain ⟨n1, n2, hle⟩ := hP.bounds.ordered i _ _ hL hU
  obtain ⟨l, hl⟩ := hP.finL _ (List.getElem_mem h1)
  obtain ⟨u, hu⟩ := hP.finU _ (List.getElem_mem h2)
  have hle' : l ≤ u := by rw [hl, hu] at hle; simpa using hle
  have ri : P.lb.length - P.nix ≤ i → wp (randInt v.g P.lb[i] P.ub[i]) (fun w _ => Num (P.lb.length - P.nix ≤ i) w) E e := by
    intro hi
    obtain ⟨a, rfl⟩ := hP.bounds.intL i l hi (by rw [hL, hl])
    obtain ⟨b, rfl⟩ := hP.bounds.intU i u hi (by rw [hU, hu])
    have ha := hint i a hi (Or.inl (by rw [hL, hl]))
    have hb := hint i b hi (Or.inr (by rw [hU, hu]))
    rw [hl, hu]
    refine (wp_randInt hg ha.1 ha.2 hb.1 hb.2 (by exact_mod_cast hle') e).mono ?_ (fun _ _ h => h)
    rintro w _ ⟨c, hc1, hc2⟩
    exact ⟨c, hc1, fun _ => hc2 trivial⟩
  obtain ⟨xa, rfl, hxi⟩ := hx
  obtain ⟨p, hp⟩ := hm.paramM
  obtain ⟨one, h1'⟩ := hm.one
  unfold mutGene
  cases hmu : A.mutn with
  | uniform =>
    dsimp only
    split
    · rename_i hi
      have hi : i < P.lb.length - P.nix := by simpa using hi
      unfold Rnd.uniformRealFromRange
      refine (wp_uniformReal hg true hle n2 n1 _).mono ?_ ?_
      · rintro w e2 ⟨_, h3, h4⟩
        rw [hl] at h3; rw [hu] at h4
        obtain ⟨k, rfl, _, _⟩ := between_cases h3 h4
        exact ⟨k, rfl, fun h => absurd h (by omega)⟩
      · rintro e2 s ⟨_, hf⟩
        exfalso
        refine hf ?_
        rw [hl, hu]
        obtain ⟨c, hc⟩ := hm.noOver.sub u l
        exact ⟨rfl, rfl, by rw [hc]; rfl⟩
    · rename_i hi
      exact ri (by simpa using hi)
  | gaussian =>
    dsimp only
    rw [wp_bind]
    show Num _ _
    rw [hl, hu, hp]
    obtain ⟨c1, e1⟩ := hm.noOver.sub u l
    obtain ⟨c2, e2⟩ := hm.noOver.mul c1 p
    obtain ⟨c3, e3⟩ := hm.noOver.mul (v.d.normal e).1 c2
    rw [e1, e2, e3]
    split
    · rename_i hi
      have hi : i < P.lb.length - P.nix := by simpa using hi
      obtain ⟨c4, e4⟩ := hm.noOver.add xa c3
      exact ⟨c4, e4, fun h => absurd h (by omega)⟩
    · rename_i hi
      have hi : P.lb.length - P.nix ≤ i := by simpa using hi
      obtain ⟨z, rfl⟩ := hxi hi
      obtain ⟨y, ey⟩ := hm.round c3
      obtain ⟨w, ew⟩ := hm.intAdd z y
      exact ⟨w, by rw [ey, ew], fun _ => ⟨w, rfl⟩⟩
  | polynomial =>
    dsimp only
    split
    · rename_i hi
      have hi : i < P.lb.length - P.nix := by simpa using hi
      rw [wp_bind]
      refine Gen.wp_draw01 hg (fun r e' hr0 hr1 => ?_)
      obtain ⟨q1, q2⟩ := hm.pow hmu r hr0 hr1
      rw [hl, hu]
      have hhalf : Fl.le (Fl.fin r) half = true ↔ r ≤ 1 / 2 := by
        rw [fl_le_iff]; simp [half]
      split
      · rename_i hr
        obtain ⟨c1, e1⟩ := q1 (hhalf.mp hr)
        rw [wp_pure, e1, h1']
        obtain ⟨c3, e3⟩ := hm.noOver.sub c1 one
        obtain ⟨c4, e4⟩ := hm.noOver.sub xa l
        obtain ⟨c5, e5⟩ := hm.noOver.mul c3 c4
        obtain ⟨c6, e6⟩ := hm.noOver.add xa c5
        exact ⟨c6, by rw [e3, e4, e5, e6], fun h => absurd h (by omega)⟩
      · rename_i hr
        obtain ⟨c2, e2⟩ := q2 (not_le.mp (fun h => hr (hhalf.mpr h)))
        rw [wp_pure, e2, h1']
        obtain ⟨c3, e3⟩ := hm.noOver.sub one c2
        obtain ⟨c4, e4⟩ := hm.noOver.sub u xa
        obtain ⟨c5, e5⟩ := hm.noOver.mul c3 c4
        obtain ⟨c6, e6⟩ := hm.noOver.add xa c5
        exact ⟨c6, by rw [e3, e4, e5, e6], fun h => absurd h (by omega)⟩
    · rename_i hi
      exact ri (by simpa using hi)

theorem wp_mutOne {v : SgaEnv K σ} {rep : K → Prop} (hg : v.g.Lawful rep) (hd : v.d.Lawful) {P : AProb K} (hP : FiniteBox P) (hint : IntBounds P)
    {A : Sga K} (hm : MutNum v A) {n : Nat} {s : List (List (Fl K)) × List Nat} (h1 : Fam (InBox P.lb P.ub P.nix) n s.1)
    (h2 : IdxIn P.lb.length s.2) (h3 : s.2.length = P.lb.length) {i : Nat} (hi : i < n) {E : Exn → σ → Prop} (e : σ) :
    wp (mutOne v A P.lb P.ub P.nix s i) (fun r _ => Fam (InBox P.lb P.ub P.nix) n r.1 ∧ IdxIn P.lb.length r.2 ∧
      r.2.length = P.lb.length) E e := by
  unfold mutOne
  have hul := hP.bounds.len
  have hxl := h1.1
  rw [wp_bind]
  refine wp_shuffle hd (fun todo e1 ht1 ht2 => ?_)
  have ht : IdxIn P.lb.length todo := fun j hj => h2 j (ht2 j hj)
  obtain ⟨p, hp, hp0, hp1⟩ := hm.m
  rw [wp_bind]
  have hbin : v.d.drawBinom P.lb.length A.m e1 = (.ok (v.d.binom P.lb.length p e1).1, (v.d.binom P.lb.length p e1).2) := by
    unfold Dist.drawBinom; rw [hp]; simp only [hp0, hp1, and_self, if_true]
  have hle := hd.binom_le P.lb.length p e1
  unfold wp
  rw [hbin]
  dsimp only
  generalize (v.d.binom P.lb.length p e1).1 = N at hle
  generalize (v.d.binom P.lb.length p e1).2 = e2
  show wp _ _ _ e2
  rw [wp_bind, wp_lift_get (by omega), wp_bind]
  have hx0 := inBox_iff.mp (h1.2 _ (List.getElem_mem (l := s.1) (n := i) (by omega)))
  have hnum : AllAt (fun j w => Num (P.lb.length - P.nix ≤ j) w) P.lb.length (s.1[i]'(by omega)) := by
    refine ⟨hx0.1, fun j w hw => ?_⟩
    have hj : j < P.lb.length := by rw [← hx0.1]; exact (List.getElem?_eq_some_iff.mp hw).1
    have hr := hx0.2 j w hw _ _ (List.getElem?_eq_getElem hj) (List.getElem?_eq_getElem (by omega))
    obtain ⟨l, hl⟩ := hP.finL _ (List.getElem_mem hj)
    obtain ⟨u, hu⟩ := hP.finU _ (List.getElem_mem (l := P.ub) (n := j) (by omega))
    rw [hl, hu] at hr
    obtain ⟨k, rfl, _, _⟩ := between_cases hr.1 hr.2.1
    refine ⟨k, rfl, fun h => ?_⟩
    obtain ⟨z, hz⟩ := hr.2.2 h
    exact ⟨z, by injection hz⟩
  refine (wp_range (fun _ (x : List (Fl K)) _ => AllAt (fun j w => Num (P.lb.length - P.nix ≤ j) w) P.lb.length x) N _ e2 hnum ?_).mono ?_ (fun _ _ h => h)
  · intro j x e3 hj hx
    unfold mutStep
    have htj := ht _ (List.getElem_mem (l := todo) (n := j) (by omega))
    have hxlen := hx.1
    rw [wp_bind, wp_lift_get (by omega), wp_bind, wp_lift_get (by omega), wp_bind, wp_lift_get (by omega), wp_bind,
      wp_lift_get (by omega), wp_bind]
    refine (wp_mutGene hg hP hint hm htj (by omega) (allAt_get hx (by omega)) e3).mono ?_ (fun _ _ h => h)
    intro w e4 hw
    rw [wp_lift_set (by omega)]
    exact allAt_set hx hw
  · intro x e3 hx
    have hb : BoxFor P.lb P.ub x := ⟨hx.1.symm, by rw [← hul]; exact hx.1.symm,
      fun i l u h1 h2 => ⟨(hP.bounds.ordered i l u h1 h2).2.2, (hP.bounds.ordered i l u h1 h2).2.1⟩⟩
    obtain ⟨y, hy1, hy2, hy3⟩ := C48_stick_nearest P.lb P.ub x hb (fun w hw => by
      obtain ⟨j, hj, rfl⟩ := List.getElem_of_mem hw
      obtain ⟨a, ha, _⟩ := allAt_get hx hj
      rw [ha]; simp)
    rw [wp_bind, hy1, wp_lift_ok, wp_bind, wp_lift_set (by omega), wp_pure]
    refine ⟨fam_set h1 ⟨hy2.trans hx.1, ?_⟩, ht, by rw [ht1]; exact h3⟩
    intro j l u w hl hu hw
    have hj : j < x.length := by rw [← hy2]; exact (List.getElem?_eq_some_iff.mp hw).1
    obtain ⟨q1, q2, q3⟩ := hy3 j l u _ w hl hu (List.getElem?_eq_getElem hj) hw
    obtain ⟨_, _, hle⟩ := hP.bounds.ordered j l u hl hu
    obtain ⟨l', rfl⟩ := hP.finL l (List.mem_of_getElem? hl)
    obtain ⟨u', rfl⟩ := hP.finU u (List.mem_of_getElem? hu)
    rcases lt_or_ge x[j] (Fl.fin l') with h | h
    · rw [q1 h]
      exact ⟨le_rfl, hle, fun hji => by obtain ⟨z, rfl⟩ := hP.bounds.intL j l' hji hl; exact ⟨z, rfl⟩⟩
    · rcases lt_or_ge (Fl.fin u') x[j] with h' | h'
      · rw [q2 h']
        exact ⟨hle, le_rfl, fun hji => by obtain ⟨z, rfl⟩ := hP.bounds.intU j u' hji hu; exact ⟨z, rfl⟩⟩
      · rw [q3 ⟨h, h'⟩]
        refine ⟨h, h', fun hji => ?_⟩
        obtain ⟨a, ha, hai⟩ := allAt_get hx hj
        obtain ⟨z, rfl⟩ := hai hji
        exact ⟨z, ha⟩

theorem wp_sgaMutate {v : SgaEnv K σ} {rep : K → Prop} (hg : v.g.Lawful rep) (hd : v.d.Lawful) {P : AProb K} (hP : FiniteBox P) (hint : IntBounds P)
    {A : Sga K} (hm : MutNum v A) {n : Nat} {X : List (List (Fl K))} (hX : Fam (InBox P.lb P.ub P.nix) n X) {E : Exn → σ → Prop} (e : σ) :
    wp (sgaMutate v A P.lb P.ub P.nix X) (fun Y _ => Fam (InBox P.lb P.ub P.nix) n Y) E e := by
  unfold sgaMutate
  have hl := hX.1
  rw [wp_bind]
  refine (wp_range (fun _ (r : List (List (Fl K)) × List Nat) _ => Fam (InBox P.lb P.ub P.nix) n r.1 ∧ IdxIn P.lb.length r.2 ∧
      r.2.length = P.lb.length) _ _ e ⟨hX, idxIn_range _, by simp⟩ ?_).mono ?_ (fun _ _ h => h)
  · rintro i r e' hi ⟨h1, h2, h3⟩
    exact wp_mutOne hg hd hP hint hm h1 h2 h3 (by omega) e'
  · rintro r e' ⟨h1, -, -⟩
    exact h1

/-- The offspring lie inside the bounds, integral where they have to be. -/
theorem wp_sgaOffspring {v : SgaEnv K σ} {rep : K → Prop} (hg : v.g.Lawful rep) (hd : v.d.Lawful) (hs : ValidSort v.srt) {P : AProb K}
    (hP : FiniteBox P) (hint : IntBounds P) {A : Sga K} (hm : MutNum v A) (hsbx : A.cross = .sbx → SbxNum v A.etaC) {n : Nat} (hn : 2 ≤ n)
    (heven : A.cross = .sbx → n % 2 = 0) (h0 : 0 < A.paramS) (hS : A.paramS ≤ n) {x f : List (List (Fl K))}
    (hx : Fam (InBox P.lb P.ub P.nix) n x) (hf : f.length = n) {E : Exn → σ → Prop} (e : σ) :
    wp (sgaOffspring v P A x f) (fun Y _ => Fam (InBox P.lb P.ub P.nix) n Y) E e := by
  unfold sgaOffspring
  rw [wp_bind]
  refine wp_sgaSelect hg hs h0 (by omega) (fun idx e1 h1 h2 => ?_)
  have hxl := hx.1
  obtain ⟨X, h3, h4, h5⟩ := gather_spec x idx (fun i hi => by have := h2 i hi; omega)
  rw [wp_bind, h3, wp_lift_ok, wp_bind]
  refine (wp_sgaCross hg hd hP hsbx hn heven (X := X) ⟨by omega, fun y hy => hx.2 y (gather_mem h4 h5 hy)⟩ e1).mono ?_ (fun _ _ h => h)
  intro Y e2 hY
  exact wp_sgaMutate hg hd hP hint hm hY e2

end

end Verif.Props
