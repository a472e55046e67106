import Verif.Model.Gaco
import Verif.Proof.Cmaes
import Verif.Proof.Constrained

/-!
# Helper lemmas for `Verif.Props.Gaco`
-/

set_option autoImplicit false

namespace Verif.Props

open Verif Run Prob Pop Alg

variable {K σ : Type} [Field K] [LinearOrder K]

/-! ### Penalties -/

omit [Field K] [LinearOrder K] in
theorem gaSlice_ok {r : List (Fl K)} {i n : Nat} (h : i + n ≤ r.length) : gaSlice r i n = .ok ((r.drop i).take n) := if_pos h

omit [Field K] [LinearOrder K] in
theorem gaSlice_length {r : List (Fl K)} {i n : Nat} (h : i + n ≤ r.length) : ((r.drop i).take n).length = n := by
  rw [List.length_take, List.length_drop]; omega

/-- the penalties of all individuals, if there are constraints or not -/
theorem gaViol_ok [IsStrictOrderedRing K] {v : GaEnv K σ} {P : AProb K} (hnobj : P.info.nobj = 1) {tol f : List (Fl K)}
    (ht : tol.length = P.info.nc) (hf : f.length = P.info.nf) : ∃ r, gaViol v P tol f = .ok r := by
  have hnf : P.info.nf = 1 + P.info.nec + P.info.nic := by simp only [Info.nf, Info.nc]; omega
  have hnc : P.info.nc = P.info.nec + P.info.nic := rfl
  obtain ⟨l1, h1, _⟩ := Con.testCons_spec v.sq true ((f.drop P.info.nobj).take P.info.nec) tol (by
    rw [List.length_take, List.length_drop]; omega)
  obtain ⟨l2, h2, _⟩ := Con.testCons_spec v.sq false (f.drop (P.info.nobj + P.info.nec)) (tol.drop P.info.nec) (by
    rw [List.length_drop, List.length_drop]; omega)
  unfold gaViol
  rw [h1, Outcome.bind_ok, h2, Outcome.bind_ok]
  exact ⟨_, rfl⟩

theorem gaPenalty_ok [IsStrictOrderedRing K] {v : GaEnv K σ} {P : AProb K} (hnobj : P.info.nobj = 1) {tol f : List (Fl K)}
    (ht : tol.length = P.info.nc) (hf : f.length = P.info.nf) (o : Fl K) : ∃ r, gaPenalty v P tol o f = .ok r := by
  have hnf : P.info.nf = 1 + P.info.nec + P.info.nic := by simp only [Info.nf, Info.nc]; omega
  obtain ⟨r, hr⟩ := gaViol_ok (v := v) hnobj ht hf
  have h0 : 0 < f.length := by omega
  unfold gaPenalty
  split
  · rw [hr, Outcome.bind_ok, Outcome.get_of_lt h0]; exact ⟨_, rfl⟩
  · rw [Outcome.pure_eq, Outcome.bind_ok, Outcome.get_of_lt h0]; exact ⟨_, rfl⟩

/-- the penalty of a fitness vector -/
noncomputable def gaPenOf (v : GaEnv K σ) (P : AProb K) (tol : List (Fl K)) (o : Fl K) (f : List (Fl K)) : Fl K :=
  match gaPenalty v P tol o f with
  | .ok r => r
  | _ => .nan

theorem gaPenOf_eq [IsStrictOrderedRing K] {v : GaEnv K σ} {P : AProb K} (hnobj : P.info.nobj = 1) {tol f : List (Fl K)}
    (ht : tol.length = P.info.nc) (hf : f.length = P.info.nf) (o : Fl K) : gaPenalty v P tol o f = .ok (gaPenOf v P tol o f) := by
  obtain ⟨r, hr⟩ := gaPenalty_ok (v := v) hnobj ht hf o
  unfold gaPenOf
  rw [hr]

theorem swo_gaLess (ps : List (Fl K)) (l : List Nat) : swoOn (gaLess ps) l = true :=
  swoOn_of_key (fun i => ps.getD i .nan) fun a _ b _ => Fl.lessThanF_iff _ _

/-! ### The archive -/

/-- An archive: `ker` rows, each with a penalty, a chromosome and a fitness vector. -/
def GaArch (P : AProb K) (ker : Nat) (arch : List (List (Fl K))) : Prop :=
  arch.length = ker ∧ ∀ r ∈ arch, r.length = 1 + P.info.nx + P.info.nf

/-- the individual in a row -/
def gaInd (P : AProb K) (r : List (Fl K)) : List (Fl K) × List (Fl K) := ((r.drop 1).take P.info.nx, (r.drop (1 + P.info.nx)).take P.info.nf)

/-- the row for individual `j` -/
def gaRowOf (xs fs : List (List (Fl K))) (ps : List (Fl K)) (j : Nat) : List (Fl K) := ps.getD j .nan :: (xs.getD j [] ++ fs.getD j [])

/-- what is needed of a population -/
structure GaPop (P : AProb K) (n : Nat) (xs fs : List (List (Fl K))) : Prop where
  xl : xs.length = n
  fl : fs.length = n
  dx : ∀ x ∈ xs, x.length = P.info.nx
  df : ∀ f ∈ fs, f.length = P.info.nf

omit [Field K] [LinearOrder K] in
theorem gaRowOf_length {P : AProb K} {n : Nat} {xs fs : List (List (Fl K))} (h : GaPop P n xs fs) (ps : List (Fl K)) {j : Nat} (hj : j < n) :
    (gaRowOf xs fs ps j).length = 1 + P.info.nx + P.info.nf := by
  have hjx : j < xs.length := by rw [h.xl]; exact hj
  have hjf : j < fs.length := by rw [h.fl]; exact hj
  unfold gaRowOf
  rw [List.length_cons, List.length_append, List.getD_eq_getElem _ _ hjx, List.getD_eq_getElem _ _ hjf, h.dx _ (List.getElem_mem hjx),
    h.df _ (List.getElem_mem hjf)]
  omega

omit [Field K] [LinearOrder K] in
theorem gaRowOf_ind {P : AProb K} {n : Nat} {xs fs : List (List (Fl K))} (h : GaPop P n xs fs) (ps : List (Fl K)) {j : Nat} (hj : j < n) :
    gaInd P (gaRowOf xs fs ps j) = (xs.getD j [], fs.getD j []) ∧ gaInd P (gaRowOf xs fs ps j) ∈ xs.zip fs := by
  have hjx : j < xs.length := by rw [h.xl]; exact hj
  have hjf : j < fs.length := by rw [h.fl]; exact hj
  have e : gaInd P (gaRowOf xs fs ps j) = (xs.getD j [], fs.getD j []) := by
    unfold gaInd gaRowOf
    rw [List.getD_eq_getElem _ _ hjx, List.getD_eq_getElem _ _ hjf]
    have h1 := h.dx _ (List.getElem_mem hjx)
    have h2 := h.df _ (List.getElem_mem hjf)
    rw [List.drop_succ_cons, List.drop_zero, Nat.add_comm 1, List.drop_succ_cons, ← h1, List.take_left, List.drop_left, ← h2, List.take_length]
  refine ⟨e, ?_⟩
  rw [e, List.getD_eq_getElem _ _ hjx, List.getD_eq_getElem _ _ hjf]
  have hz : j < (xs.zip fs).length := by rw [List.length_zip]; omega
  have : (xs.zip fs)[j] = (xs[j], fs[j]) := List.getElem_zip
  rw [← this]
  exact List.getElem_mem hz

omit [Field K] [LinearOrder K] in
theorem gaRows_ok {P : AProb K} {n ker : Nat} {xs fs : List (List (Fl K))} (h : GaPop P n xs fs) {ps : List (Fl K)} (hp : ps.length = n)
    {sl : List Nat} (hs : sl.Perm (List.range n)) (hk : ker ≤ n) : gaRows P xs fs ps sl ker = .ok ((sl.take ker).map (gaRowOf xs fs ps)) := by
  have hsl : sl.length = n := by rw [hs.length_eq, List.length_range]
  unfold gaRows
  rw [Outcome.mapM_ok (fun i => gaRowOf xs fs ps (sl.getD i 0))]
  · congr 1
    apply List.ext_getElem
    · simp; omega
    · intro i h1 h2
      simp only [List.length_map, List.length_range] at h1
      have : i < sl.length := by omega
      simp only [List.getElem_map, List.getElem_range, List.getElem_take, List.getD_eq_getElem _ _ this]
  · intro i hi
    have hi' : i < sl.length := by have := List.mem_range.mp hi; omega
    have hj : sl[i] < n := List.mem_range.mp (hs.mem_iff.mp (List.getElem_mem hi'))
    have hjx : sl[i] < xs.length := by rw [h.xl]; exact hj
    have hjf : sl[i] < fs.length := by rw [h.fl]; exact hj
    have hjp : sl[i] < ps.length := by rw [hp]; exact hj
    have h1 := h.dx _ (List.getElem_mem hjx)
    have h2 := h.df _ (List.getElem_mem hjf)
    rw [Outcome.get_of_lt hi', Outcome.bind_ok, Outcome.get_of_lt hjp, Outcome.bind_ok]
    unfold gaRow
    rw [Outcome.get_of_lt hjx, Outcome.bind_ok, Outcome.get_of_lt hjf, Outcome.bind_ok, gaSlice_ok (by omega), Outcome.bind_ok,
      gaSlice_ok (by omega), Outcome.bind_ok, List.getD_eq_getElem _ _ hi']
    unfold gaRowOf
    rw [List.getD_eq_getElem _ _ hjx, List.getD_eq_getElem _ _ hjf, List.getD_eq_getElem _ _ hjp, List.drop_zero, List.drop_zero, ← h1, List.take_length,
      ← h2, List.take_length]
    rfl

/-- what `new_sort_list` always satisfies -/
structure GaKept (n : Nat) (nsl : List Nat) : Prop where
  pos : ∃ t, nsl = 0 :: t
  lt : ∀ j ∈ nsl, j < n
  inc : nsl.Pairwise (· < ·)

theorem gaKeepStep_ok {op : Fl.Ops K} {acc : Fl K} {tp : List (Fl K)} {slp : List Nat} (hs : slp.Perm (List.range tp.length)) {c : Nat × List Nat} {j : Nat}
    (hj : j < tp.length) (hc : c.1 < tp.length) :
    ∃ pa pb, tp[slp.getD j 0]? = some pa ∧ tp[slp.getD c.1 0]? = some pb ∧
      gaKeepStep op acc tp slp c j = .ok (if Fl.lt (Fl.abs (op.sub pa pb)) acc = true then c else (c.1 + 1, c.2 ++ [j])) := by
  have hsl : slp.length = tp.length := by rw [hs.length_eq, List.length_range]
  have h1 : j < slp.length := by omega
  have h2 : c.1 < slp.length := by omega
  have h3 : slp[j] < tp.length := List.mem_range.mp (hs.mem_iff.mp (List.getElem_mem h1))
  have h4 : slp[c.1] < tp.length := List.mem_range.mp (hs.mem_iff.mp (List.getElem_mem h2))
  refine ⟨_, _, by rw [List.getD_eq_getElem _ _ h1, List.getElem?_eq_getElem h3], by rw [List.getD_eq_getElem _ _ h2, List.getElem?_eq_getElem h4], ?_⟩
  unfold gaKeepStep
  rw [Outcome.get_of_lt h1, Outcome.bind_ok, Outcome.get_of_lt h3, Outcome.bind_ok, Outcome.get_of_lt h2, Outcome.bind_ok, Outcome.get_of_lt h4, Outcome.bind_ok]
  split <;> rfl

theorem gaKeep_ok {op : Fl.Ops K} {ker : Nat} {acc : Fl K} {tp : List (Fl K)} (h0 : 0 < tp.length) {slp : List Nat} (hs : slp.Perm (List.range tp.length)) :
    ∃ nsl, gaKeep op ker acc tp slp = .ok nsl ∧ GaKept tp.length nsl := by
  have hsl : slp.length = tp.length := by rw [hs.length_eq, List.length_range]
  unfold gaKeep
  rw [Outcome.get_of_lt (show 0 < slp.length by omega), Outcome.bind_ok]
  have key := Outcome.foldlM_sat (f := gaKeepStep op acc tp slp)
    (fun pre (c : Nat × List Nat) => c.1 ≤ pre.length + 1 ∧ (∃ t, c.2 = 0 :: t) ∧ (∀ j ∈ c.2, j < pre.length + 1) ∧ c.2.Pairwise (· < ·))
    (List.range' 1 (tp.length - 1)) [] (if slp[0] < ker then 0 else 1, [0]) ⟨by split <;> simp, ⟨[], rfl⟩, by simp, by simp⟩ ?_
  · obtain ⟨c, hc1, hc2, hc3, hc4, hc5⟩ := key
    rw [hc1, Outcome.bind_ok]
    refine ⟨_, rfl, hc3, fun j hj => ?_, hc5⟩
    have := hc4 j hj
    simp at this
    omega
  · rintro p a q ⟨c, l⟩ hl ⟨h1, h2, h3, h4⟩
    have ha : a = p.length + 1 := by
      have := congrArg (fun l => l[p.length]?) hl
      simp only [List.getElem?_append_right (le_refl p.length), Nat.sub_self, List.getElem?_cons_zero] at this
      have hlen := congrArg List.length hl
      simp at hlen
      rw [List.getElem?_range' (by omega)] at this
      simp at this
      omega
    have hlen := congrArg List.length hl
    simp at hlen
    simp only [List.nil_append] at h1 h3 ⊢
    obtain ⟨pa, pb, _, _, e⟩ := gaKeepStep_ok (op := op) (acc := acc) hs (c := (c, l)) (j := a) (by omega) (by dsimp only; omega)
    rw [e]
    refine ⟨_, rfl, ?_⟩
    split
    · refine ⟨by simp; omega, h2, fun j hj => ?_, h4⟩
      have := h3 j hj
      simp; omega
    · obtain ⟨t, ht⟩ := h2
      refine ⟨by simp; omega, ⟨t ++ [a], by dsimp only at ht ⊢; rw [ht]; rfl⟩, fun j hj => ?_, ?_⟩
      · rcases List.mem_append.mp hj with hj | hj
        · have := h3 j hj
          simp; omega
        · rw [List.mem_singleton.mp hj]; simp; omega
      · rw [List.pairwise_append]
        refine ⟨h4, by simp, fun x hx y hy => ?_⟩
        rw [List.mem_singleton.mp hy]
        have := h3 x hx
        omega

/-- the penalty in a row -/
def gaHead (r : List (Fl K)) : Fl K := r.getD 0 .nan

/-- The archive made of the rows `cands` (those of the population, then the old ones): `slp` are their numbers, sorted by penalty; the
positions in `nsl` are kept. -/
structure GaMerged (op : Fl.Ops K) (ker : Nat) (acc : Fl K) (cands arch arch' : List (List (Fl K))) (slp nsl : List Nat) : Prop where
  sorted : IsSorted (gaLess (cands.map gaHead)) (List.range (2 * ker)) slp
  keep : gaKeep op ker acc (cands.map gaHead) slp = .ok nsl
  kept : GaKept (2 * ker) nsl
  len : arch'.length = ker
  rows : ∀ i, i < ker → arch'[i]? = if i < nsl.length then cands[slp.getD (nsl.getD i 0) 0]? else arch[i]?

theorem gaMerge_ok {v : GaEnv K σ} (hsrt : ValidSort v.srt) {P : AProb K} {A : Gaco K} (hker : 0 < A.ker) {n : Nat} {xs fs : List (List (Fl K))}
    (h : GaPop P n xs fs) {ps : List (Fl K)} (hp : ps.length = n) {sl : List Nat} (hs : sl.Perm (List.range n)) (hk : A.ker ≤ n)
    {arch : List (List (Fl K))} (ha : GaArch P A.ker arch) :
    ∃ arch' slp nsl, gaMerge v P A xs fs ps sl arch = .ok arch' ∧
      GaMerged v.op A.ker A.acc ((sl.take A.ker).map (gaRowOf xs fs ps) ++ arch) arch arch' slp nsl := by
  have hsl : sl.length = n := by rw [hs.length_eq, List.length_range]
  generalize hnews : (sl.take A.ker).map (gaRowOf xs fs ps) = news
  have hnl : news.length = A.ker := by rw [← hnews]; simp; omega
  have hnr : ∀ r ∈ news, r.length = 1 + P.info.nx + P.info.nf := by
    intro r hr
    rw [← hnews] at hr
    obtain ⟨j, hj, rfl⟩ := List.mem_map.mp hr
    exact gaRowOf_length h ps (List.mem_range.mp (hs.mem_iff.mp (List.mem_of_mem_take hj)))
  have heads : ∀ l : List (List (Fl K)), (∀ r ∈ l, r.length = 1 + P.info.nx + P.info.nf) → l.mapM (fun r => Outcome.get r 0) = .ok (l.map gaHead) := by
    intro l hl
    refine Outcome.mapM_ok _ _ fun r hr => ?_
    have := hl r hr
    rw [Outcome.get_of_lt (show 0 < r.length by omega), gaHead, List.getD_eq_getElem _ _ (show 0 < r.length by omega)]
  have hold : (List.range A.ker).mapM (Outcome.get arch) = .ok arch := by
    rw [Outcome.mapM_ok (fun i => arch.getD i [])]
    · congr 1
      apply List.ext_getElem
      · simp [ha.1]
      · intro i h1 h2
        simp only [List.getElem_map, List.getElem_range, List.getD_eq_getElem _ _ h2]
    · intro i hi
      have hi' : i < arch.length := by rw [ha.1]; exact List.mem_range.mp hi
      rw [Outcome.get_of_lt hi', List.getD_eq_getElem _ _ hi']
  have hcr : ∀ r ∈ news ++ arch, r.length = 1 + P.info.nx + P.info.nf := by
    intro r hr
    rcases List.mem_append.mp hr with hr | hr
    · exact hnr r hr
    · exact ha.2 r hr
  have hcl : (news ++ arch).length = 2 * A.ker := by rw [List.length_append, hnl, ha.1]; omega
  have htl : ((news ++ arch).map gaHead).length = 2 * A.ker := by rw [List.length_map, hcl]
  obtain ⟨slp, hslp, hsort⟩ := stdSort_sat (lt := gaLess ((news ++ arch).map gaHead)) hsrt (swo_gaLess ((news ++ arch).map gaHead) (List.range (2 * A.ker)))
  obtain ⟨nsl, hnsl, hkept⟩ := gaKeep_ok (op := v.op) (ker := A.ker) (acc := A.acc) (tp := (news ++ arch).map gaHead) (by rw [htl]; omega)
    (slp := slp) (by rw [htl]; exact hsort.perm)
  rw [htl] at hkept
  have hslpl : slp.length = 2 * A.ker := by rw [hsort.perm.length_eq, List.length_range]
  have hplace : ∃ arch', (List.range (min A.ker nsl.length)).foldlM (gaPlace (1 + P.info.nx + P.info.nf) (news ++ arch) slp nsl) arch = .ok arch' ∧
      arch'.length = A.ker ∧ (∀ i, i < A.ker → arch'[i]? = if i < min A.ker nsl.length then (news ++ arch)[slp.getD (nsl.getD i 0) 0]? else arch[i]?) ∧
      ∀ r ∈ arch', r.length = 1 + P.info.nx + P.info.nf := by
    refine Outcome.range_sat (f := gaPlace (1 + P.info.nx + P.info.nf) (news ++ arch) slp nsl)
      (fun m (t : List (List (Fl K))) => t.length = A.ker ∧
        (∀ i, i < A.ker → t[i]? = if i < m then (news ++ arch)[slp.getD (nsl.getD i 0) 0]? else arch[i]?) ∧
        ∀ r ∈ t, r.length = 1 + P.info.nx + P.info.nf) _ _ ⟨ha.1, (fun i _ => by simp), ha.2⟩ ?_
    rintro ii t hii ⟨h1, h2, h3⟩
    have hi1 : ii < nsl.length := by omega
    have hi2 : ii < t.length := by omega
    have hj := hkept.lt _ (List.getElem_mem hi1)
    have hj' : nsl[ii] < slp.length := by omega
    have hb : slp[nsl[ii]] < (news ++ arch).length := by
      rw [hcl]
      exact List.mem_range.mp (hsort.perm.mem_iff.mp (List.getElem_mem hj'))
    have hsr := hcr _ (List.getElem_mem hb)
    have htr := h3 _ (List.getElem_mem hi2)
    have e : gaPlace (1 + P.info.nx + P.info.nf) (news ++ arch) slp nsl t ii = .ok (t.set ii ((news ++ arch)[slp[nsl[ii]]])) := by
      unfold gaPlace
      rw [Outcome.get_of_lt hi1, Outcome.bind_ok, Outcome.get_of_lt hj', Outcome.bind_ok, Outcome.get_of_lt hb, Outcome.bind_ok,
        Outcome.get_of_lt hi2, Outcome.bind_ok, gaSlice_ok (by omega), Outcome.bind_ok, gaSlice_ok (by omega), Outcome.bind_ok, if_neg (by omega),
        Outcome.set_of_lt hi2, List.drop_zero, ← hsr, List.take_length, hsr, htr, Nat.sub_self, List.take_zero, List.append_nil]
    rw [e]
    refine ⟨_, rfl, by rw [List.length_set]; exact h1, fun i hi => ?_, fun r hr => ?_⟩
    · by_cases hie : i = ii
      · subst hie
        rw [List.getElem?_set_self hi2, if_pos (by omega), List.getD_eq_getElem _ _ hi1, List.getD_eq_getElem _ _ hj', List.getElem?_eq_getElem hb]
      · rw [List.getElem?_set_ne (by omega), h2 i hi]
        by_cases hlt : i < ii
        · rw [if_pos hlt, if_pos (by omega)]
        · rw [if_neg hlt, if_neg (by omega)]
    · rcases List.mem_or_eq_of_mem_set hr with hr | hr
      · exact h3 r hr
      · rw [hr]; exact hsr
  obtain ⟨arch', hpl1, hpl2, hpl3, _⟩ := hplace
  refine ⟨arch', slp, nsl, ?_, hsort, hnsl, hkept, hpl2, fun i hi => ?_⟩
  · unfold gaMerge
    rw [gaRows_ok h hp hs hk, Outcome.bind_ok, hnews, heads _ hnr, Outcome.bind_ok, hold, Outcome.bind_ok, heads _ ha.2, Outcome.bind_ok, ← List.map_append,
      htl, hslp, Outcome.bind_ok, hnsl, Outcome.bind_ok, hpl1]
  · rw [hpl3 i hi]
    by_cases hlt : i < nsl.length
    · rw [if_pos (by omega), if_pos hlt]
    · rw [if_neg (by omega), if_neg hlt]

/-- The rows of a new archive are rows of the population or of the old one. -/
theorem GaMerged.mem {op : Fl.Ops K} {ker : Nat} {acc : Fl K} {cands arch arch' : List (List (Fl K))} {slp nsl : List Nat}
    (h : GaMerged op ker acc cands arch arch' slp nsl) (ha : ∀ r ∈ arch, r ∈ cands) {r : List (Fl K)} (hr : r ∈ arch') : r ∈ cands := by
  obtain ⟨i, hi, rfl⟩ := List.getElem_of_mem hr
  have h1 := h.rows i (by rw [← h.len]; exact hi)
  rw [List.getElem?_eq_getElem hi] at h1
  split at h1
  · exact List.mem_of_getElem? h1.symm
  · exact ha _ (List.mem_of_getElem? h1.symm)

/-- What `gaArchive` does in a generation. -/
inductive GaArchived (v : GaEnv K σ) (A : Gaco K) (gen : Nat) (xs fs : List (List (Fl K))) (ps : List (Fl K)) (sl : List Nat) (m : GaMem K)
    (arch : List (List (Fl K))) : GaMem K → List (List (Fl K)) → Prop
  | fill (h : gen = 1 ∧ m.counter < 2) : GaArchived v A gen xs fs ps sl m arch m ((sl.take A.ker).map (gaRowOf xs fs ps))
  | merge (h : ¬ (gen = 1 ∧ m.counter < 2)) {arch' : List (List (Fl K))} {slp nsl : List Nat}
      (hlt : Fl.lt (ps.getD (sl.getD 0 0) .nan) (gaHead (arch.getD (A.ker - 1) [])) = true)
      (hm : GaMerged v.op A.ker A.acc ((sl.take A.ker).map (gaRowOf xs fs ps) ++ arch) arch arch' slp nsl) :
      GaArchived v A gen xs fs ps sl m arch { m with nImp := 1, mark := gaMark A m } arch'
  | keep (h : ¬ (gen = 1 ∧ m.counter < 2))
      (hlt : Fl.lt (ps.getD (sl.getD 0 0) .nan) (gaHead (arch.getD (A.ker - 1) [])) = false) :
      GaArchived v A gen xs fs ps sl m arch { m with nImp := incU m.nImp, mark := gaMark A m } arch

/-- the archive a generation starts with -/
def gaStart (A : Gaco K) (m : GaMem K) (arch : List (List (Fl K))) : List (List (Fl K)) := if A.memory ∧ m.counter > 1 then m.arch else arch

/-- the members with the archive stored -/
def gaStored (A : Gaco K) (m : GaMem K) (arch : List (List (Fl K))) : GaMem K := if A.memory then { m with arch := arch } else m

theorem gaArchive_ok {v : GaEnv K σ} (hsrt : ValidSort v.srt) {P : AProb K} {A : Gaco K} (hker : 0 < A.ker) {n gen : Nat} {xs fs : List (List (Fl K))}
    (h : GaPop P n xs fs) {ps : List (Fl K)} (hp : ps.length = n) {sl : List Nat} (hs : sl.Perm (List.range n)) (hk : A.ker ≤ n) {m : GaMem K}
    {arch : List (List (Fl K))} (ha : GaArch P A.ker (gaStart A m arch)) :
    ∃ m' arch', gaArchive v P A gen xs fs ps sl m arch = .ok (gaStored A m' arch', arch') ∧
      GaArchived v A gen xs fs ps sl m (gaStart A m arch) m' arch' := by
  have hsl : sl.length = n := by rw [hs.length_eq, List.length_range]
  unfold gaArchive
  dsimp only
  rw [show (if A.memory = true ∧ m.counter > 1 then m.arch else arch) = gaStart A m arch from rfl]
  generalize gaStart A m arch = a0 at *
  by_cases hc : gen = 1 ∧ m.counter < 2
  · refine ⟨m, _, ?_, .fill hc⟩
    rw [if_pos hc, gaRows_ok h hp hs hk]
    rfl
  · have h0 : 0 < a0.length := by rw [ha.1]; omega
    have hl : A.ker - 1 < a0.length := by rw [ha.1]; omega
    have hr0 := ha.2 _ (List.getElem_mem h0)
    have hrl := ha.2 _ (List.getElem_mem hl)
    have hs0 : 0 < sl.length := by omega
    have hj0 : sl[0] < ps.length := by rw [hp]; exact List.mem_range.mp (hs.mem_iff.mp (List.getElem_mem hs0))
    have e1 : ps.getD (sl.getD 0 0) .nan = ps[sl[0]] := by rw [List.getD_eq_getElem _ _ hs0, List.getD_eq_getElem _ _ hj0]
    have e2 : gaHead (a0.getD (A.ker - 1) []) = a0[A.ker - 1][0] := by
      rw [gaHead, List.getD_eq_getElem _ _ hl, List.getD_eq_getElem _ _ (show 0 < a0[A.ker - 1].length by omega)]
    rw [if_neg hc]
    unfold gaUpdate
    rw [Outcome.get_of_lt h0, Outcome.bind_ok, gaSlice_ok (by omega), Outcome.bind_ok, Outcome.get_of_lt hs0, Outcome.bind_ok, Outcome.get_of_lt hj0,
      Outcome.bind_ok, Outcome.get_of_lt hl, Outcome.bind_ok, Outcome.get_of_lt (show 0 < a0[A.ker - 1].length by omega), Outcome.bind_ok]
    by_cases hlt : Fl.lt ps[sl[0]] a0[A.ker - 1][0] = true
    · obtain ⟨arch', slp, nsl, h1, h2⟩ := gaMerge_ok (v := v) hsrt hker h hp hs hk ha
      refine ⟨_, arch', ?_, .merge hc (by rw [e1, e2]; exact hlt) h2⟩
      rw [if_pos hlt, h1]
      rfl
    · refine ⟨_, a0, ?_, .keep hc (by rw [e1, e2]; simpa using hlt)⟩
      rw [if_neg hlt]
      rfl

theorem gaArchived_arch {v : GaEnv K σ} {P : AProb K} {A : Gaco K} {n gen : Nat} {xs fs : List (List (Fl K))}
    (h : GaPop P n xs fs) {ps : List (Fl K)} {sl : List Nat} (hs : sl.Perm (List.range n)) (hk : A.ker ≤ n) {m m' : GaMem K}
    {arch arch' : List (List (Fl K))} (ha : GaArch P A.ker arch) (hr : GaArchived v A gen xs fs ps sl m arch m' arch') :
    GaArch P A.ker arch' ∧ ∀ r ∈ arch', r ∈ (sl.take A.ker).map (gaRowOf xs fs ps) ∨ r ∈ arch := by
  have hsl : sl.length = n := by rw [hs.length_eq, List.length_range]
  have hnr : ∀ r ∈ (sl.take A.ker).map (gaRowOf xs fs ps), r.length = 1 + P.info.nx + P.info.nf := by
    intro r hr
    obtain ⟨j, hj, rfl⟩ := List.mem_map.mp hr
    exact gaRowOf_length h ps (List.mem_range.mp (hs.mem_iff.mp (List.mem_of_mem_take hj)))
  cases hr with
  | fill hc => exact ⟨⟨by simp; omega, hnr⟩, fun r hr => Or.inl hr⟩
  | merge hc hlt hm =>
    have hmem : ∀ r ∈ arch', r ∈ (sl.take A.ker).map (gaRowOf xs fs ps) ++ arch := fun r hr => hm.mem (fun r hr => by simp [hr]) hr
    refine ⟨⟨hm.len, fun r hr => ?_⟩, fun r hr => List.mem_append.mp (hmem r hr)⟩
    rcases List.mem_append.mp (hmem r hr) with h1 | h1
    · exact hnr r h1
    · exact ha.2 r h1
  | keep hc hlt => exact ⟨ha, fun r hr => Or.inr hr⟩

/-! ### Pheromones and ants -/

theorem gaSpread_ok {op : Fl.Ops K} {ker : Nat} (hk : 2 ≤ ker) {col : List (Fl K)} (hc : col.length = ker) : ∃ d, gaSpread op ker col = .ok d := by
  unfold gaSpread
  rw [Outcome.get_of_lt (show 0 < col.length by omega), Outcome.bind_ok, Outcome.get_of_lt (show 1 < col.length by omega), Outcome.bind_ok]
  refine (Outcome.foldlM_sat (fun _ _ => True) (gaPairs ker) [] _ trivial ?_).imp fun d h => h.1
  rintro p ⟨a, b⟩ q d hl _
  have hm : (a, b) ∈ gaPairs ker := by rw [hl]; simp
  obtain ⟨c, hc1, hc2⟩ := List.mem_flatMap.mp hm
  obtain ⟨k, hk1, hk2⟩ := List.mem_map.mp hc2
  simp only [Prod.mk.injEq] at hk2
  obtain ⟨rfl, rfl⟩ := hk2
  have h1 := List.mem_range.mp hc1
  have h2 := List.mem_range'_1.mp hk1
  dsimp only
  rw [Outcome.get_of_lt (show c < col.length by omega), Outcome.bind_ok, Outcome.get_of_lt (show k < col.length by omega), Outcome.bind_ok]
  exact ⟨_, rfl, trivial⟩

/-- the entries of the rows for variable `h` -/
def gaCol (arch : List (List (Fl K))) (h : Nat) : List (Fl K) := arch.map (fun r => r.getD (1 + h) .nan)

theorem gaSigma_ok {v : GaEnv K σ} {P : AProb K} (hP : SaneBounds P.lb P.ub P.nix) (hnx : P.info.nx = P.lb.length) {A : Gaco K} (hk : 2 ≤ A.ker)
    {arch : List (List (Fl K))} (ha : GaArch P A.ker arch) (gen : Nat) (m : GaMem K) :
    ∃ sig, gaSigma v P A gen m arch = .ok sig ∧ sig.length = P.info.nx ∧
      ∀ (h : Nat) (s : Fl K), sig[h]? = some s → ∃ lo hi d, P.lb[h]? = some lo ∧ P.ub[h]? = some hi ∧ gaSpread v.op A.ker (gaCol arch h) = .ok d ∧
        s = gaDev v P A gen m h lo hi d.1 d.2 := by
  have hold : (List.range A.ker).mapM (Outcome.get arch) = .ok arch := by
    rw [Outcome.mapM_ok (fun i => arch.getD i [])]
    · congr 1
      apply List.ext_getElem
      · simp [ha.1]
      · intro i h1 h2
        simp only [List.getElem_map, List.getElem_range, List.getD_eq_getElem _ _ h2]
    · intro i hi
      have hi' : i < arch.length := by rw [ha.1]; exact List.mem_range.mp hi
      rw [Outcome.get_of_lt hi', List.getD_eq_getElem _ _ hi']
  have key := Outcome.mapM_sat_forall₂ (P := fun h s => ∃ lo hi d, P.lb[h]? = some lo ∧ P.ub[h]? = some hi ∧
      gaSpread v.op A.ker (gaCol arch h) = .ok d ∧ s = gaDev v P A gen m h lo hi d.1 d.2) (f := fun h => do
    let rows ← (List.range A.ker).mapM (Outcome.get arch)
    let col ← rows.mapM (fun r => Outcome.get r (1 + h))
    let d ← gaSpread v.op A.ker col
    let lo ← Outcome.get P.lb h
    let hi ← Outcome.get P.ub h
    pure (gaDev v P A gen m h lo hi d.1 d.2)) (List.range P.info.nx) (by
      intro h hh
      have hh' := List.mem_range.mp hh
      have hl : h < P.lb.length := by omega
      have hu : h < P.ub.length := by rw [← hP.len]; omega
      have hcol : arch.mapM (fun r => Outcome.get r (1 + h)) = .ok (gaCol arch h) := by
        refine Outcome.mapM_ok _ _ fun r hr => ?_
        have := ha.2 r hr
        rw [Outcome.get_of_lt (show 1 + h < r.length by omega), List.getD_eq_getElem _ _ (show 1 + h < r.length by omega)]
      obtain ⟨d, hd⟩ := gaSpread_ok (op := v.op) hk (col := gaCol arch h) (by unfold gaCol; rw [List.length_map, ha.1])
      rw [hold, Outcome.bind_ok, hcol, Outcome.bind_ok, hd, Outcome.bind_ok, Outcome.get_of_lt hl, Outcome.bind_ok, Outcome.get_of_lt hu, Outcome.bind_ok]
      exact ⟨_, rfl, _, _, d, List.getElem?_eq_getElem hl, List.getElem?_eq_getElem hu, rfl, rfl⟩)
  obtain ⟨sig, h1, h2, h3⟩ := key
  rw [List.length_range] at h2
  refine ⟨sig, h1, h2, fun h s hs => ?_⟩
  have hl : h < P.info.nx := by rw [← h2]; exact (List.getElem?_eq_some_iff.mp hs).1
  exact h3 h h s (by rw [List.getElem?_range hl]) hs

theorem gaCum_length (v : GaEnv K σ) (q : Fl K) (ker : Nat) : (gaCum v q ker).length = ker := by
  unfold gaCum
  simp

theorem gaPhero_length {v : GaEnv K σ} {A : Gaco K} {gen : Nat} {m : GaMem K} {cum : List (Fl K)} (h : cum.length = A.ker) :
    (gaPhero v A gen m cum).2.length = A.ker := by
  unfold gaPhero
  split
  · split
    · exact gaCum_length v _ _
    · exact h
  · exact gaCum_length v _ _

theorem gaPhero_mem (v : GaEnv K σ) (A : Gaco K) (gen : Nat) (m : GaMem K) (cum : List (Fl K)) : ∃ q, (gaPhero v A gen m cum).1 = { m with q := q } := by
  unfold gaPhero
  split
  · split
    · exact ⟨_, rfl⟩
    · exact ⟨m.q, rfl⟩
  · exact ⟨_, rfl⟩

theorem gaPick_ok {ker : Nat} (hk : 2 ≤ ker) {cum : List (Fl K)} (hc : cum.length = ker) (u : Fl K) : ∃ k, gaPick ker cum u = .ok k ∧ k < ker := by
  unfold gaPick
  rw [Outcome.get_of_lt (show 0 < cum.length by omega), Outcome.bind_ok]
  split
  · exact ⟨0, rfl, by omega⟩
  · rw [Outcome.get_of_lt (show ker - 2 < cum.length by omega), Outcome.bind_ok]
    split
    · exact ⟨ker - 1, rfl, by omega⟩
    · refine Outcome.foldlM_sat (fun _ k => k < ker) (List.range' 1 (ker - 2)) [] 0 (by omega) ?_
      intro p a q k hl hk'
      have hm : a ∈ List.range' 1 (ker - 2) := by rw [hl]; simp
      have ha := List.mem_range'_1.mp hm
      unfold gaPickStep
      rw [Outcome.get_of_lt (show a - 1 < cum.length by omega), Outcome.bind_ok, Outcome.get_of_lt (show a < cum.length by omega), Outcome.bind_ok]
      refine ⟨_, rfl, ?_⟩
      split <;> omega

/-- A component of a new ant: normal numbers are drawn (at most eleven) until the value is within the bounds; the last value is moved to the
bounds, and rounded if the variable is an integer. -/
def GaGeneOf (v : GaEnv K σ) (P : AProb K) (row sig : List (Fl K)) (h : Nat) (w : Fl K) : Prop :=
  ∃ c s lo hi, row[1 + h]? = some c ∧ sig[h]? = some s ∧ P.lb[h]? = some lo ∧ P.ub[h]? = some hi ∧
    ∃ (zs : List K) (z : K), zs.length ≤ 10 ∧ (∀ y ∈ zs, gaOut lo hi (v.op.add c (v.op.mul s (.fin y))) = true) ∧
      (gaOut lo hi (v.op.add c (v.op.mul s (.fin z))) = true → zs.length = 10) ∧
      w = (fun g => if h ≥ P.info.nx - P.nix then v.rd g else g) (gaClamp lo hi (v.op.add c (v.op.mul s (.fin z))))

omit [Field K] in
theorem gaClamp_in {lo hi g : Fl K} (h : gaOut lo hi g = false) : gaClamp lo hi g = g := by
  unfold gaOut at h
  rw [Bool.or_eq_false_iff] at h
  unfold gaClamp
  rw [h.1]
  simp [h.2]

theorem wp_gaRedraw {v : GaEnv K σ} {c s lo hi : Fl K} {Q : Fl K → σ → Prop} {E : Exn → σ → Prop}
    (hq : ∀ (zs : List K) (z : K) (e' : σ), zs.length ≤ 10 → (∀ y ∈ zs, gaOut lo hi (v.op.add c (v.op.mul s (.fin y))) = true) →
      (gaOut lo hi (v.op.add c (v.op.mul s (.fin z))) = true → zs.length = 10) → Q (v.op.add c (v.op.mul s (.fin z))) e') :
    ∀ (n : Nat) (zs : List K) (z : K) (e : σ), zs.length + n = 10 → (∀ y ∈ zs, gaOut lo hi (v.op.add c (v.op.mul s (.fin y))) = true) →
      wp (gaRedraw v c s lo hi n (v.op.add c (v.op.mul s (.fin z)))) Q E e := by
  intro n
  induction n with
  | zero =>
    intro zs z e hl hzs
    exact hq zs z e (by omega) hzs (fun _ => by omega)
  | succ n ih =>
    intro zs z e hl hzs
    unfold gaRedraw
    split
    · rename_i hout
      rw [wp_bind]
      exact ih (zs ++ [z]) _ _ (by simp; omega) (by
        intro y hy
        rcases List.mem_append.mp hy with hy | hy
        · exact hzs y hy
        · rw [List.mem_singleton.mp hy]; exact hout)
    · rename_i hout
      exact hq zs z e (by omega) hzs (fun h => absurd h hout)

theorem wp_gaNormal {d : Dist K σ} {Q : Fl K → σ → Prop} {E : Exn → σ → Prop} {e : σ} (h : ∀ (z : K) (e' : σ), Q (.fin z) e') :
    wp d.drawNormal Q E e := h _ _

theorem wp_gaGene {v : GaEnv K σ} {P : AProb K} (hP : SaneBounds P.lb P.ub P.nix) (hnx : P.info.nx = P.lb.length) {row sig : List (Fl K)} {h : Nat}
    (hh : h < P.info.nx) (hr : 1 + P.info.nx ≤ row.length) (hs : sig.length = P.info.nx) {Q : Fl K → σ → Prop} {E : Exn → σ → Prop}
    (hq : ∀ w e, GaGeneOf v P row sig h w → Q w e) (e : σ) : wp (gaGene v P row sig h) Q E e := by
  have h1 : 1 + h < row.length := by omega
  have h2 : h < sig.length := by omega
  have h3 : h < P.lb.length := by omega
  have h4 : h < P.ub.length := by rw [← hP.len]; omega
  unfold gaGene
  rw [wp_bind, wp_lift_get h1, wp_bind, wp_lift_get h2, wp_bind, wp_lift_get h3, wp_bind, wp_lift_get h4, wp_bind]
  have fin : ∀ (zs : List K) (z : K) (e' : σ), zs.length ≤ 10 →
      (∀ y ∈ zs, gaOut P.lb[h] P.ub[h] (v.op.add row[1 + h] (v.op.mul sig[h] (.fin y))) = true) →
      (gaOut P.lb[h] P.ub[h] (v.op.add row[1 + h] (v.op.mul sig[h] (.fin z))) = true → zs.length = 10) →
      Q ((fun g => if h ≥ P.info.nx - P.nix then v.rd g else g) (gaClamp P.lb[h] P.ub[h] (v.op.add row[1 + h] (v.op.mul sig[h] (.fin z))))) e' := by
    intro zs z e' hz1 hz2 hz3
    exact hq _ _ ⟨_, _, _, _, List.getElem?_eq_getElem h1, List.getElem?_eq_getElem h2, List.getElem?_eq_getElem h3, List.getElem?_eq_getElem h4, zs, z,
      hz1, hz2, hz3, rfl⟩
  refine wp_gaNormal ?_
  intro z e1
  dsimp only
  split
  · rw [wp_bind]
    refine wp_gaRedraw ?_ 10 [] _ _ rfl (by simp)
    intro zs z e' hz1 hz2 hz3
    exact fin zs z e' hz1 hz2 hz3
  · rename_i hout
    have := fin [] z e1 (by simp) (by simp) (fun h => absurd h hout)
    rw [gaClamp_in (by simpa using hout)] at this
    exact this

/-- A new ant: a row of the archive is chosen by a number in `[0, 1]`, each component is drawn around it. -/
def GaAntOf (v : GaEnv K σ) (P : AProb K) (A : Gaco K) (cum sig : List (Fl K)) (arch : List (List (Fl K))) (x : List (Fl K)) : Prop :=
  ∃ (u : K) (k : Nat) (row : List (Fl K)), 0 ≤ u ∧ u ≤ 1 ∧ gaPick A.ker cum (.fin u) = .ok k ∧ arch[k]? = some row ∧ x.length = P.info.nx ∧
    ∀ (h : Nat) (w : Fl K), x[h]? = some w → GaGeneOf v P row sig h w

theorem wp_gaAnt [IsStrictOrderedRing K] {v : GaEnv K σ} {rep : K → Prop} (hg : v.g.Lawful rep) {P : AProb K} (hP : SaneBounds P.lb P.ub P.nix)
    (hnx : P.info.nx = P.lb.length) {A : Gaco K} (hk : 2 ≤ A.ker) {cum sig : List (Fl K)} (hc : cum.length = A.ker) (hs : sig.length = P.info.nx)
    {arch : List (List (Fl K))} (ha : GaArch P A.ker arch) {Q : List (Fl K) → σ → Prop} {E : Exn → σ → Prop}
    (hq : ∀ x e, GaAntOf v P A cum sig arch x → Q x e) (e : σ) : wp (gaAnt v P A cum sig arch) Q E e := by
  unfold gaAnt
  rw [wp_bind]
  refine Gen.wp_draw01 hg ?_
  intro u e1 hu0 hu1
  obtain ⟨k, hk1, hk2⟩ := gaPick_ok hk hc (.fin u)
  have hka : k < arch.length := by rw [ha.1]; exact hk2
  have hrow := ha.2 _ (List.getElem_mem hka)
  rw [wp_bind, hk1, wp_lift_ok, wp_bind, wp_lift_get hka]
  refine (wp_range (fun i (x : List (Fl K)) (_ : σ) => x.length = i ∧ ∀ (h : Nat) (w : Fl K), x[h]? = some w → GaGeneOf v P arch[k] sig h w)
    P.info.nx [] e1 ⟨rfl, by simp⟩ ?_).mono ?_ (fun _ _ h => h)
  · rintro i x e2 hi ⟨hx1, hx2⟩
    rw [wp_bind]
    refine wp_gaGene hP hnx hi (by omega) hs ?_ e2
    intro w e3 hw
    refine ⟨by simp [hx1], fun h w' hh => ?_⟩
    by_cases hlt : h < x.length
    · rw [List.getElem?_append_left hlt] at hh
      exact hx2 h w' hh
    · rw [List.getElem?_append_right (by omega)] at hh
      have h0 : h - x.length = 0 := by
        by_contra hne
        rw [List.getElem?_eq_none (by simp; omega)] at hh
        cases hh
      rw [h0] at hh
      simp at hh
      subst hh
      have : h = i := by omega
      subst this
      exact hw
  · rintro x e2 ⟨hx1, hx2⟩
    exact hq x e2 ⟨u, k, _, hu0, hu1, hk1, List.getElem?_eq_getElem hka, hx1, hx2⟩

theorem wp_gaAnts [IsStrictOrderedRing K] {v : GaEnv K σ} {rep : K → Prop} (hg : v.g.Lawful rep) {P : AProb K} (hP : SaneBounds P.lb P.ub P.nix)
    (hnx : P.info.nx = P.lb.length) {A : Gaco K} (hk : 2 ≤ A.ker) {cum sig : List (Fl K)} (hc : cum.length = A.ker) (hs : sig.length = P.info.nx)
    {arch : List (List (Fl K))} (ha : GaArch P A.ker arch) {n : Nat} {Q : List (List (Fl K)) → σ → Prop} {E : Exn → σ → Prop}
    (hq : ∀ xs e, xs.length = n → (∀ x ∈ xs, GaAntOf v P A cum sig arch x) → Q xs e) (e : σ) : wp (gaAnts v P A cum sig arch n) Q E e := by
  unfold gaAnts
  refine (wp_range (fun i (xs : List (List (Fl K))) (_ : σ) => xs.length = i ∧ ∀ x ∈ xs, GaAntOf v P A cum sig arch x)
    n [] e ⟨rfl, by simp⟩ ?_).mono ?_ (fun _ _ h => h)
  · rintro i xs e2 hi ⟨hx1, hx2⟩
    rw [wp_bind]
    refine wp_gaAnt hg hP hnx hk hc hs ha ?_ e2
    intro x e3 hx
    refine ⟨by simp [hx1], fun y hy => ?_⟩
    rcases List.mem_append.mp hy with hy | hy
    · exact hx2 y hy
    · rw [List.mem_singleton.mp hy]; exact hx
  · rintro xs e2 ⟨h1, h2⟩
    exact hq xs e2 h1 h2

/-- What is used of `std::round`: a nearest integer; infinities and NaN are not changed. -/
structure RoundOk (rd : Fl K → Fl K) : Prop where
  near : ∀ a, ∃ z : ℤ, rd (.fin a) = .fin (z : K) ∧ |(z : K) - a| ≤ 1 / 2
  ninf : rd .ninf = .ninf
  pinf : rd .pinf = .pinf
  nan : rd .nan = .nan

/-- A point that may be evaluated: each component is within the bounds unless it is NaN, and integer variables have integer values. -/
def GaBox (P : AProb K) (x : List (Fl K)) : Prop :=
  x.length = P.info.nx ∧ ∀ (j : Nat) (l u w : Fl K), P.lb[j]? = some l → P.ub[j]? = some u → x[j]? = some w → w ≠ .nan →
    l ≤ w ∧ w ≤ u ∧ (P.info.nx - P.nix ≤ j → ∀ a, w = .fin a → ∃ z : ℤ, a = z)

omit [Field K] in
theorem gaClamp_box {lo hi g : Fl K} (hl : lo ≠ .nan) (hu : hi ≠ .nan) (hlu : lo ≤ hi) (hg : g ≠ .nan) : lo ≤ gaClamp lo hi g ∧ gaClamp lo hi g ≤ hi := by
  unfold gaClamp
  dsimp only
  by_cases h1 : Fl.lt g lo = true
  · rw [if_pos h1, if_neg (by unfold Fl.gt; rw [Fl.lt_iff hu hl]; exact not_lt.mpr hlu)]
    exact ⟨le_rfl, hlu⟩
  · rw [if_neg h1]
    have h1' : lo ≤ g := not_lt.mp (fun h => h1 ((Fl.lt_iff hg hl).mpr h))
    by_cases h2 : Fl.gt g hi = true
    · rw [if_pos h2]; exact ⟨hlu, le_rfl⟩
    · rw [if_neg h2]
      exact ⟨h1', not_lt.mp (fun h => h2 ((Fl.lt_iff hu hg).mpr h))⟩

omit [Field K] in
theorem gaClamp_nan {lo hi : Fl K} : gaClamp lo hi .nan = .nan := by
  cases lo <;> cases hi <;> simp [gaClamp, Fl.lt, Fl.gt]

theorem gaBox_of [IsStrictOrderedRing K] {v : GaEnv K σ} (hrd : RoundOk v.rd) {P : AProb K} (hP : SaneBounds P.lb P.ub P.nix)
    (hnx : P.info.nx = P.lb.length) {A : Gaco K} {cum sig : List (Fl K)} {arch : List (List (Fl K))} {x : List (Fl K)}
    (hx : GaAntOf v P A cum sig arch x) : GaBox P x := by
  obtain ⟨u, k, row, _, _, _, _, hxl, hgene⟩ := hx
  refine ⟨hxl, fun j l u w h1 h2 h3 h4 => ?_⟩
  obtain ⟨c, s, lo, hi, _, _, h5, h6, zs, z, _, _, _, hw⟩ := hgene j w h3
  rw [h1, Option.some.injEq] at h5
  rw [h2, Option.some.injEq] at h6
  subst h5 h6
  obtain ⟨hl, hu, hlu⟩ := hP.ordered j l u h1 h2
  generalize v.op.add c (v.op.mul s (.fin z)) = g at hw
  dsimp only at hw
  by_cases hg : g = .nan
  · rw [hg, gaClamp_nan, hrd.nan, ite_self] at hw
    exact absurd hw h4
  · obtain ⟨b1, b2⟩ := gaClamp_box hl hu hlu hg
    generalize gaClamp l u g = y at hw b1 b2
    by_cases hj : j ≥ P.info.nx - P.nix
    · rw [if_pos hj] at hw
      cases y with
      | nan => rw [hrd.nan] at hw; exact absurd hw h4
      | ninf => rw [hrd.ninf] at hw; subst hw; exact ⟨b1, b2, fun _ a h => by cases h⟩
      | pinf => rw [hrd.pinf] at hw; subst hw; exact ⟨b1, b2, fun _ a h => by cases h⟩
      | fin a =>
        obtain ⟨m, hm1, hm2⟩ := hrd.near a
        rw [hm1] at hw
        subst hw
        rw [abs_le] at hm2
        refine ⟨?_, ?_, fun _ a' h => ⟨m, by injection h with h; exact h.symm⟩⟩
        · cases l with
          | nan => exact absurd rfl hl
          | ninf => simp
          | pinf => exact absurd b1 (by simp [Fl.le_def, Fl.cls])
          | fin lk =>
            obtain ⟨n, rfl⟩ := hP.intL j lk (by omega) h1
            rw [Fl.fin_le_fin] at b1 ⊢
            have : ((n - 1 : ℤ) : K) < (m : K) := by push_cast; linarith [hm2.1]
            have h' := Int.cast_lt.mp this
            exact Int.cast_le.mpr (by omega)
        · cases u with
          | nan => exact absurd rfl hu
          | ninf => exact absurd b2 (by simp [Fl.le_def, Fl.cls])
          | pinf => simp [Fl.le_def, Fl.cls]
          | fin uk =>
            obtain ⟨n, rfl⟩ := hP.intU j uk (by omega) h2
            rw [Fl.fin_le_fin] at b2 ⊢
            have : (m : K) < ((n + 1 : ℤ) : K) := by push_cast; linarith [hm2.2]
            have h' := Int.cast_lt.mp this
            exact Int.cast_le.mpr (by omega)
    · rw [if_neg hj] at hw
      subst hw
      exact ⟨b1, b2, fun h => absurd h hj⟩

/-! ### Evaluation -/

section
variable [IsStrictOrderedRing K]

omit [Field K] [LinearOrder K] [IsStrictOrderedRing K] in
theorem wp_gaBatch {B : List (Fl K) → Prop} {P : AProb K} {b : Batch K}
    (hok : BatchOk P b) (hnx : 0 < P.info.nx) (hnf : 0 < P.info.nf) {s0 s : St K σ}
    {new : List (ECall K)} (ht : TrackedBy B P s0 new s) {xs : List (List (Fl K))} (hx : ∀ x ∈ xs, x.length = P.info.nx)
    (hB : ∀ x ∈ xs, B x) {Q : List (List (Fl K)) → St K σ → Prop} {E : Exn → St K σ → Prop}
    (hq : ∀ fs s', fs.length = xs.length → (∀ f ∈ fs, f.length = P.info.nf) → s'.pop = s.pop → s'.e = s.e →
      TrackedBy B P s0 (new ++ asCalls (xs.zip fs)) s' → Q fs s')
    (he : ∀ e, (b s.evs xs.flatten = .error e ∨ e = .invalidArgument ∧ ∃ fvs, b s.evs xs.flatten = .ok fvs ∧
      fvs.length ≠ xs.flatten.length / P.info.nx * P.info.nf) → E e s) : wp (gaBatch P b xs) Q E s := by
  have hfl := length_flatten_const hx
  have hin : checkInput P.info.nx xs.flatten = .ok () := checkInput_ok.mpr ⟨xs.length, by rw [hfl, Nat.mul_comm]⟩
  have hdiv : xs.flatten.length / P.info.nx = xs.length := by rw [hfl, Nat.mul_div_cancel _ hnx]
  unfold wp gaBatch
  rw [hin]
  dsimp only
  cases hbr : b s.evs xs.flatten with
  | error e =>
    exact he e (Or.inl hbr)
  | ok fvs =>
    dsimp only
    by_cases hl : fvs.length = xs.length * P.info.nf
    · have hout : checkOutput P.info.nx P.info.nf xs.flatten fvs = .ok () := by
        unfold checkOutput
        rw [if_neg (by rw [hl]; simp), if_neg (by rw [hdiv, hl, Nat.mul_div_cancel _ (by omega)]; simp)]
      rw [hout]
      dsimp only
      have hle : ∀ i, i < xs.length → (i + 1) * P.info.nf ≤ fvs.length := fun i hi => by
        rw [hl]; exact Nat.mul_le_mul_right _ hi
      refine hq _ _ (by simp) ?_ rfl rfl ?_
      · intro f hf
        obtain ⟨i, hi, rfl⟩ := List.mem_map.mp hf
        exact chunk_length (hle i (List.mem_range.mp hi))
      · refine ⟨ht.inv, ht.id, ht.tol, ?_, ?_, ?_, ht.faults⟩
        · dsimp only
          rw [ht.evs, List.append_assoc]
          rfl
        · intro p hp
          rcases List.mem_append.mp hp with hp | hp
          · exact ht.box p hp
          · obtain ⟨q, hq', rfl⟩ := List.mem_map.mp hp
            exact hB _ (List.of_mem_zip hq').1
        · intro p hp
          rcases List.mem_append.mp hp with hp | hp
          · exact ht.user p hp
          · obtain ⟨q, hq', rfl⟩ := List.mem_map.mp hp
            obtain ⟨i, hi, hi'⟩ := List.getElem_of_mem hq'
            rw [List.getElem_zip] at hi'
            rw [List.length_zip, List.length_map, List.length_range, min_self] at hi
            obtain ⟨h', hfit⟩ := hok s.evs xs.flatten fvs hbr i (by rw [hfl]; exact Nat.mul_le_mul_right _ hi) (hle i hi)
            refine ⟨h', ?_⟩
            rw [← hi']
            rw [chunk_flatten xs i hx hi] at hfit
            simp [hfit]
    · have hout : checkOutput P.info.nx P.info.nf xs.flatten fvs = .throws .invalidArgument := by
        unfold checkOutput
        split
        · rfl
        · rename_i h1
          rw [if_pos]
          intro h2
          apply hl
          rw [hdiv] at h2
          rw [← h2, Nat.div_mul_cancel (Nat.dvd_of_mod_eq_zero (not_not.mp h1))]
      rw [hout]
      exact he _ (Or.inr ⟨rfl, fvs, hbr, by rw [hdiv]; exact hl⟩)

omit [IsStrictOrderedRing K] in
theorem chStep_nonempty {sq : Fl K → Fl K} {P : Info} {x f : List (Fl K)} {s : Pop.State K} {c : List (Fl K) × List (Fl K)} (h : ChStep sq P x f s c)
    (hs : s.chX ≠ []) (hx : x ≠ []) : c.1 ≠ [] := by
  rcases h with ⟨_, rfl⟩ | ⟨_, _, rfl⟩ | ⟨_, _, _, rfl⟩ | ⟨_, _, _, rfl⟩
  · exact hs
  · exact hx
  · exact hx
  · exact hs

theorem wp_gaSetX {B : List (Fl K) → Prop} {v : Env K σ} {P : AProb K} {s0 s : St K σ} {new : List (ECall K)} {i : Nat} {x : List (Fl K)}
    {Q : Unit → St K σ → Prop} {E : Exn → St K σ → Prop} (hnx : 0 < P.info.nx) (hnobj : 0 < P.info.nobj)
    (ht : TrackedBy B P s0 new s) (hi : i < s.pop.id.length) (hx : x.length = P.info.nx) (hB : B x)
    (hq : ∀ f s', f.length = P.info.nf → TrackedBy B P s0 (new ++ [(x, .ok f)]) s' → (s.pop.chX ≠ [] → s'.pop.chX ≠ []) → s'.pop.x = s.pop.x.set i x →
      s'.pop.f = s.pop.f.set i f → Q () s')
    (he : ∀ e s', FailedBy B P s0 e s' → E e s') : wp (setX v P i x) Q E s := by
  unfold setX
  rw [wp_bind]
  refine wp_eval_by hx ht hB ?_ he
  intro f s1 hf hpop _ ht1
  refine wp_setXF_tracked hnx hnobj ht1 (by rw [hpop]; exact hi) hx hf ?_ he
  intro s2 ht2 _ hx2 hf2 hc
  rw [hpop] at hx2 hf2
  exact hq f s2 hf ht2 (fun hch => chStep_nonempty hc (by rw [hpop]; exact hch) (fun h => by rw [h] at hx; simp at hx; omega)) hx2 hf2

theorem wp_gaEval {v : GaEnv K σ} {P : AProb K} (hnx : 0 < P.info.nx) (hnobj : 0 < P.info.nobj)
    {bfe : Option (Batch K)} (hok : ∀ b, bfe = some b → BatchOk P b) {B : List (Fl K) → Prop} {s0 s : St K σ} {new : List (ECall K)} (ht : TrackedBy B P s0 new s)
    {xs : List (List (Fl K))} (hl : xs.length = s0.pop.id.length) (hx : ∀ x ∈ xs, x.length = P.info.nx) (hB : ∀ x ∈ xs, B x) :
    wp (gaEval v P bfe s0.pop.id.length xs) (fun _ s' => s'.pop.x = xs ∧ (s.pop.chX ≠ [] → s'.pop.chX ≠ []) ∧
      TrackedBy B P s0 (new ++ asCalls (s'.pop.x.zip s'.pop.f)) s') (CmFailed B P bfe s0) s := by
  have hnf : 0 < P.info.nf := by unfold Info.nf; omega
  unfold gaEval
  cases bfe with
  | none =>
    dsimp only
    refine (wp_range (fun i (_ : Unit) (s' : St K σ) => (∀ j, j < i → s'.pop.x[j]? = xs[j]?) ∧ (s.pop.chX ≠ [] → s'.pop.chX ≠ []) ∧
      TrackedBy B P s0 (new ++ asCalls ((s'.pop.x.zip s'.pop.f).take i)) s') s0.pop.id.length () s
      ⟨by omega, id, by simpa [asCalls] using ht⟩ ?_).mono ?_ (fun _ _ h => h)
    · rintro i _ s1 hi ⟨hp, hch1, ht1⟩
      have hid := ht1.id
      have hxl := ht1.inv.wf.xs
      have hfl := ht1.inv.wf.fs
      have hix : i < xs.length := by omega
      have hm := List.getElem_mem hix
      unfold gaSet
      rw [wp_bind, wp_lift_get hix]
      refine wp_gaSetX hnx hnobj ht1 (by rw [hid]; exact hi) (hx _ hm) (hB _ hm) ?_ (fun _ _ h => cmFailed_of h)
      intro f s2 hf ht2 hch2 hx2 hf2
      refine ⟨fun j hj => ?_, fun h => hch2 (hch1 h), ?_⟩
      · by_cases e : j = i
        · subst e
          rw [hx2, List.getElem?_set_self (by rw [hxl, hid]; exact hi), List.getElem?_eq_getElem hix]
        · rw [hx2, List.getElem?_set_ne (by omega)]
          exact hp j (by omega)
      · rw [hx2, hf2, zip_take_set2 (by rw [hxl, hid]; exact hi) (by rw [hfl, hid]; exact hi)]
        simpa [asCalls] using ht2
    · rintro _ s1 ⟨hp, hch1, ht1⟩
      have hid := ht1.id
      have hxl := ht1.inv.wf.xs
      have hfl := ht1.inv.wf.fs
      have hlz : (s1.pop.x.zip s1.pop.f).length = s0.pop.id.length := by
        rw [List.length_zip, hxl, hfl, hid, Nat.min_self]
      rw [← hlz, List.take_length] at ht1
      exact ⟨eq_of_prefix (by rw [hxl, hid]) hl hp, hch1, ht1⟩
  | some b =>
    dsimp only
    rw [wp_bind]
    refine wp_gaBatch (hok b rfl) hnx hnf ht hx hB ?_ ?_
    · intro fs s1 hfl1 hfd hpop _ ht1
      refine (wp_range (fun i (_ : Unit) (s' : St K σ) => (∀ j, j < i → s'.pop.x[j]? = xs[j]? ∧ s'.pop.f[j]? = fs[j]?) ∧
        (s.pop.chX ≠ [] → s'.pop.chX ≠ []) ∧
        TrackedBy B P s0 (new ++ asCalls (xs.zip fs)) s') s0.pop.id.length () s1
        ⟨by omega, (fun h => by rw [hpop]; exact h), ht1⟩ ?_).mono ?_ (fun _ _ h => h)
      · rintro i _ s2 hi ⟨hp, hch2, ht2⟩
        have hid := ht2.id
        have hxl := ht2.inv.wf.xs
        have hfl := ht2.inv.wf.fs
        have hix : i < xs.length := by omega
        have hif : i < fs.length := by omega
        have hxi := hx _ (List.getElem_mem hix)
        unfold gaStore
        rw [wp_bind, wp_lift_get hix, wp_bind, wp_lift_get hif]
        refine wp_setXF_tracked hnx hnobj ht2 (by rw [hid]; exact hi) hxi (hfd _ (List.getElem_mem hif)) ?_
          (fun _ _ h => cmFailed_of h)
        intro s3 ht3 _ hx3 hf3 hc
        refine ⟨fun j hj => ?_, fun h => chStep_nonempty hc (hch2 h) (fun h => by rw [h] at hxi; simp at hxi; omega), ht3⟩
        by_cases e : j = i
        · subst e
          rw [hx3, hf3, List.getElem?_set_self (by rw [hxl, hid]; exact hi), List.getElem?_set_self (by rw [hfl, hid]; exact hi),
            List.getElem?_eq_getElem hix, List.getElem?_eq_getElem hif]
          exact ⟨rfl, rfl⟩
        · rw [hx3, hf3, List.getElem?_set_ne (by omega), List.getElem?_set_ne (by omega)]
          exact hp j (by omega)
      · rintro _ s2 ⟨hp, hch2, ht2⟩
        have hid := ht2.id
        have hxl := ht2.inv.wf.xs
        have hfl := ht2.inv.wf.fs
        have e1 := eq_of_prefix (by rw [hxl, hid]) hl (fun j hj => (hp j hj).1)
        have e2 := eq_of_prefix (by rw [hfl, hid]) (hfl1.trans hl) (fun j hj => (hp j hj).2)
        rw [e1, e2]
        exact ⟨rfl, hch2, ht2⟩
    · intro e he
      refine ⟨evsBy_of_tracked ht, Or.inr (Or.inr ⟨b, xs.flatten, rfl, he⟩)⟩

end

/-! ### The oracle -/

/-- the objective in a row -/
def gaFit (P : AProb K) (r : List (Fl K)) : Fl K := r.getD (1 + P.info.nx) .nan

/-- the norm of the violations of the individual in row `i` -/
def gaResOf (v : GaEnv K σ) (P : AProb K) (tol : List (Fl K)) (i : Nat) (r : List (Fl K)) : Fl K :=
  if i = 0 ∧ P.info.nic = 0 ∧ P.info.nec = 0 then .fin 0
  else match gaViol v P tol (gaInd P r).2 with
    | .ok x => x
    | _ => .nan

/-- the row with a new penalty -/
def gaFresh (v : GaEnv K σ) (P : AProb K) (o res : Fl K) (r : List (Fl K)) : List (Fl K) :=
  match gaPen v (gaFit P r) o res with
  | some p => r.set 0 p
  | none => r

/-- the new value of the oracle; `r` is the first row -/
def gaNewOracle (v : GaEnv K σ) (P : AProb K) (tol : List (Fl K)) (o : Fl K) (r : List (Fl K)) : Fl K :=
  if P.info.nic = 0 ∧ P.info.nec = 0 ∨ Fl.eq (gaResOf v P tol 0 r) (.fin 0) = true then gaFit P r else o

/-- What `gaOracle` does. -/
inductive GaOracled (v : GaEnv K σ) (P : AProb K) (A : Gaco K) (tol : List (Fl K)) (m : GaMem K) (arch : List (List (Fl K))) :
    GaMem K → List (List (Fl K)) → Prop
  | same (h : Fl.lt (gaFit P (arch.getD 0 [])) m.oracle = false) : GaOracled v P A tol m arch m arch
  | update (h : Fl.lt (gaFit P (arch.getD 0 [])) m.oracle = true) :
      GaOracled v P A tol m arch
        (gaStored A { m with oracle := gaNewOracle v P tol m.oracle (arch.getD 0 []) }
          (arch.mapIdx (fun i r => gaFresh v P (gaNewOracle v P tol m.oracle (arch.getD 0 [])) (gaResOf v P tol i r) r)))
        (arch.mapIdx (fun i r => gaFresh v P (gaNewOracle v P tol m.oracle (arch.getD 0 [])) (gaResOf v P tol i r) r))

theorem gaFresh_length (v : GaEnv K σ) (P : AProb K) (o res : Fl K) (r : List (Fl K)) : (gaFresh v P o res r).length = r.length := by
  unfold gaFresh
  split <;> simp

theorem gaFresh_drop (v : GaEnv K σ) (P : AProb K) (o res : Fl K) (r : List (Fl K)) (n : Nat) : (gaFresh v P o res r).drop (1 + n) = r.drop (1 + n) := by
  unfold gaFresh
  split
  · cases r with
    | nil => rfl
    | cons a l => rw [List.set_cons_zero, Nat.add_comm, List.drop_succ_cons, List.drop_succ_cons]
  · rfl

theorem gaFresh_ind (v : GaEnv K σ) (P : AProb K) (o res : Fl K) (r : List (Fl K)) : gaInd P (gaFresh v P o res r) = gaInd P r := by
  unfold gaInd
  rw [gaFresh_drop, show (gaFresh v P o res r).drop 1 = r.drop 1 from gaFresh_drop v P o res r 0]

theorem gaFresh_fit (v : GaEnv K σ) (P : AProb K) (o res : Fl K) (r : List (Fl K)) : gaFit P (gaFresh v P o res r) = gaFit P r := by
  unfold gaFit
  have h := congrArg (fun l => l.getD 0 .nan) (gaFresh_drop v P o res r P.info.nx)
  simpa [List.getD_eq_getElem?_getD] using h

section
variable [IsStrictOrderedRing K]

theorem gaOracleStep_ok {v : GaEnv K σ} {P : AProb K} (hnobj : P.info.nobj = 1) {tol : List (Fl K)} (ht : tol.length = P.info.nc) {o : Fl K}
    {arch : List (List (Fl K))} {ker : Nat} (ha : GaArch P ker arch) {i : Nat} (hi : i < ker) {r0 : List (Fl K)}
    (hr0 : gaFit P (arch.getD 0 []) = gaFit P r0) (hres : i = 0 → arch.getD 0 [] = r0) :
    gaOracleStep v P tol (o, arch) i = .ok (if i = 0 then gaNewOracle v P tol o r0 else o,
      arch.set i (gaFresh v P (if i = 0 then gaNewOracle v P tol o r0 else o) (gaResOf v P tol i (arch.getD i [])) (arch.getD i []))) := by
  have hnf : P.info.nf = 1 + P.info.nec + P.info.nic := by simp only [Info.nf, Info.nc]; omega
  have h1 : i < arch.length := by rw [ha.1]; exact hi
  have h0 : 0 < arch.length := by omega
  have l1 := ha.2 _ (List.getElem_mem h1)
  have l0 := ha.2 _ (List.getElem_mem h0)
  have e0 : arch.getD 0 [] = arch[0] := List.getD_eq_getElem _ _ h0
  have e1 : arch.getD i [] = arch[i] := List.getD_eq_getElem _ _ h1
  have f0 : arch[0][1 + P.info.nx]'(by omega) = gaFit P r0 := by
    rw [← hr0, e0, gaFit, List.getD_eq_getElem _ _ (by omega)]
  have f1 : arch[i][1 + P.info.nx]'(by omega) = gaFit P arch[i] := by
    rw [gaFit, List.getD_eq_getElem _ _ (by omega)]
  have hv : ∃ x, gaViol v P tol (gaInd P arch[i]).2 = .ok x := gaViol_ok hnobj ht (by
    unfold gaInd; dsimp only; rw [gaSlice_length (by omega)])
  have hr : gaResidual v P tol i arch[i] = .ok (gaResOf v P tol i arch[i]) := by
    obtain ⟨x, hx⟩ := hv
    unfold gaResOf gaResidual
    split
    · rfl
    · rw [gaSlice_ok (by omega), Outcome.bind_ok]
      unfold gaInd at hx
      dsimp only at hx
      rw [hx]
      unfold gaInd
      dsimp only
      rw [hx]
  have ho' : (if i = 0 ∧ (P.info.nic = 0 ∧ P.info.nec = 0 ∨ Fl.eq (gaResOf v P tol i arch[i]) (.fin 0) = true) then gaFit P r0 else o) =
      if i = 0 then gaNewOracle v P tol o r0 else o := by
    by_cases hi0 : i = 0
    · subst hi0
      have : arch[0] = r0 := by rw [← e0]; exact hres rfl
      rw [if_pos rfl, gaNewOracle, this]
      simp
    · rw [if_neg hi0, if_neg (by tauto)]
  unfold gaOracleStep
  dsimp only
  rw [Outcome.get_of_lt h1, Outcome.bind_ok, Outcome.get_of_lt h0, Outcome.bind_ok, Outcome.get_of_lt (by omega), Outcome.bind_ok, hr, Outcome.bind_ok,
    Outcome.get_of_lt (by omega), Outcome.bind_ok, f0, f1, ho', e1]
  generalize (if i = 0 then gaNewOracle v P tol o r0 else o) = o'
  unfold gaFresh
  cases gaPen v (gaFit P arch[i]) o' (gaResOf v P tol i arch[i]) with
  | some p =>
    dsimp only
    rw [Outcome.set_of_lt h1]
    rfl
  | none =>
    dsimp only
    rw [List.set_getElem_self]
    rfl

theorem gaOracle_ok {v : GaEnv K σ} {P : AProb K} (hnobj : P.info.nobj = 1) {tol : List (Fl K)} (ht : tol.length = P.info.nc) {A : Gaco K} (hk : 0 < A.ker)
    {m : GaMem K} {arch : List (List (Fl K))} (ha : GaArch P A.ker arch) :
    ∃ m' arch', gaOracle v P A tol m arch = .ok (m', arch') ∧ GaOracled v P A tol m arch m' arch' := by
  have hnf : P.info.nf = 1 + P.info.nec + P.info.nic := by simp only [Info.nf, Info.nc]; omega
  have h0 : 0 < arch.length := by rw [ha.1]; exact hk
  have l0 := ha.2 _ (List.getElem_mem h0)
  have e0 : arch.getD 0 [] = arch[0] := List.getD_eq_getElem _ _ h0
  have f0 : arch[0][1 + P.info.nx]'(by omega) = gaFit P (arch.getD 0 []) := by
    rw [e0, gaFit, List.getD_eq_getElem _ _ (by omega)]
  unfold gaOracle
  rw [Outcome.get_of_lt h0, Outcome.bind_ok, Outcome.get_of_lt (by omega), Outcome.bind_ok, f0]
  by_cases hlt : Fl.lt (gaFit P (arch.getD 0 [])) m.oracle = true
  · rw [if_pos hlt]
    have key : ∃ c, (List.range A.ker).foldlM (gaOracleStep v P tol) (m.oracle, arch) = .ok c ∧
        c.1 = gaNewOracle v P tol m.oracle (arch.getD 0 []) ∧
        c.2 = arch.mapIdx (fun i r => gaFresh v P (gaNewOracle v P tol m.oracle (arch.getD 0 [])) (gaResOf v P tol i r) r) := by
      generalize hO : gaNewOracle v P tol m.oracle (arch.getD 0 []) = O
      have := Outcome.range_sat (f := gaOracleStep v P tol)
        (fun j (c : Fl K × List (List (Fl K))) => c.1 = (if j = 0 then m.oracle else O) ∧
          c.2 = arch.mapIdx (fun i r => if i < j then gaFresh v P O (gaResOf v P tol i r) r else r)) A.ker (m.oracle, arch)
        ⟨rfl, by
          dsimp only
          apply List.ext_getElem?
          intro i
          simp⟩ ?_
      · obtain ⟨c, h1, h2, h3⟩ := this
        refine ⟨c, h1, by rw [h2, if_neg (by omega)], ?_⟩
        rw [h3]
        apply List.ext_getElem
        · simp
        · intro i h4 h5
          simp only [List.length_mapIdx] at h4
          simp only [List.getElem_mapIdx]
          rw [if_pos (by rw [← ha.1]; exact h4)]
      · rintro i ⟨o, a⟩ hi ⟨h1, h2⟩
        dsimp only at h1 h2
        have hia : i < arch.length := by rw [ha.1]; exact hi
        have hal : a.length = arch.length := by rw [h2]; simp
        have ha' : GaArch P A.ker a := by
          refine ⟨by rw [hal, ha.1], fun r hr => ?_⟩
          rw [h2] at hr
          obtain ⟨j, hj, rfl⟩ := List.getElem_of_mem hr
          rw [List.getElem_mapIdx]
          have hj' : j < arch.length := by simpa using hj
          split
          · rw [gaFresh_length]; exact ha.2 _ (List.getElem_mem hj')
          · exact ha.2 _ (List.getElem_mem hj')
        have hfit : gaFit P (a.getD 0 []) = gaFit P (arch.getD 0 []) := by
          rw [List.getD_eq_getElem _ _ (show 0 < a.length by omega), e0]
          simp only [h2, List.getElem_mapIdx]
          split
          · rw [gaFresh_fit]
          · rfl
        have hai : a.getD i [] = arch[i] := by
          rw [List.getD_eq_getElem _ _ (show i < a.length by omega)]
          simp only [h2, List.getElem_mapIdx]
          rw [if_neg (by omega)]
        rw [gaOracleStep_ok hnobj ht ha' hi hfit (by
          rintro rfl
          rw [hai, e0])]
        refine ⟨_, rfl, ?_, ?_⟩
        · dsimp only
          rw [if_neg (Nat.succ_ne_zero i)]
          by_cases hi0 : i = 0
          · subst hi0
            rw [if_pos rfl, h1, if_pos rfl, hO]
          · rw [if_neg hi0, h1, if_neg hi0]
        · dsimp only
          have ho : (if i = 0 then gaNewOracle v P tol o (arch.getD 0 []) else o) = O := by
            by_cases hi0 : i = 0
            · subst hi0
              rw [if_pos rfl, h1, if_pos rfl, hO]
            · rw [if_neg hi0, h1, if_neg hi0]
          rw [ho, hai]
          apply List.ext_getElem
          · simp [hal]
          · intro j hj1 hj2
            have hj3 : j < arch.length := by simpa using hj2
            rw [List.getElem_set]
            simp only [List.getElem_mapIdx, h2]
            by_cases hij : i = j
            · subst hij
              rw [if_pos rfl, if_pos (by omega)]
            · rw [if_neg hij]
              by_cases hlt : j < i
              · rw [if_pos hlt, if_pos (by omega)]
              · rw [if_neg hlt, if_neg (by omega)]
    obtain ⟨⟨o', a'⟩, hc1, hc2, hc3⟩ := key
    dsimp only at hc2 hc3
    rw [hc1, Outcome.bind_ok]
    dsimp only
    refine ⟨_, _, rfl, ?_⟩
    have := GaOracled.update (v := v) (P := P) (A := A) (tol := tol) (m := m) (arch := arch) hlt
    rw [← hc3, ← hc2] at this
    rw [show (if A.memory = true then { m with oracle := o', arch := a' } else { m with oracle := o' }) = gaStored A { m with oracle := o' } a' by
      unfold gaStored; split <;> rfl]
    exact this
  · rw [if_neg hlt]
    exact ⟨m, arch, rfl, .same (by simpa using hlt)⟩

end

theorem gaOracled_arch {v : GaEnv K σ} {P : AProb K} {A : Gaco K} {tol : List (Fl K)} {m m' : GaMem K} {ker : Nat} {arch arch' : List (List (Fl K))}
    (ha : GaArch P ker arch) (h : GaOracled v P A tol m arch m' arch') :
    GaArch P ker arch' ∧ arch'.map (gaInd P) = arch.map (gaInd P) ∧ m'.counter = m.counter ∧
      ((A.memory = true → m.arch = arch) → A.memory = true → m'.arch = arch') := by
  cases h with
  | same h => exact ⟨ha, rfl, rfl, fun h => h⟩
  | update h =>
    refine ⟨⟨by simp [ha.1], fun r hr => ?_⟩, ?_, ?_, ?_⟩
    · obtain ⟨j, hj, rfl⟩ := List.getElem_of_mem hr
      rw [List.getElem_mapIdx, gaFresh_length]
      exact ha.2 _ (List.getElem_mem (by simpa using hj))
    · apply List.ext_getElem
      · simp
      · intro j h1 h2
        simp [gaFresh_ind]
    · unfold gaStored
      split <;> rfl
    · intro _ hm
      unfold gaStored
      rw [if_pos hm]

/-! ### A generation -/

/-- What a run works with: the number of generations so far, the members, the archive, the weights, the individuals, the champion, the
evaluations. -/
structure GaState (K : Type) where
  g : Nat
  m : GaMem K
  arch : List (List (Fl K))
  cum : List (Fl K)
  xs : List (List (Fl K))
  fs : List (List (Fl K))
  chF : List (Fl K)
  evs : List (ECall K)

/-- One of the two criteria holds. -/
def GaStop (A : Gaco K) (m : GaMem K) : Prop := A.impstop ≠ 0 ∧ m.nImp ≥ A.impstop ∨ A.evalstop ≠ 0 ∧ m.nEval ≥ A.evalstop

/-- What a generation is made of: `ps` are the penalties, `sl` the individuals sorted by them, `m1` and `arch1` the members and the archive after
its update, `sig` the standard deviations, `check` tells if the champion improved. -/
structure GaWith (v : GaEnv K σ) (P : AProb K) (A : Gaco K) (tol : List (Fl K)) (n : Nat) (a b : GaState K) (ps : List (Fl K)) (sl : List Nat) (m1 : GaMem K)
    (arch1 : List (List (Fl K))) (sig : List (Fl K)) (check : Bool) : Prop where
  go : ¬ GaStop A a.m
  pens : ps = a.fs.map (gaPenOf v P tol a.m.oracle)
  sorted : IsSorted (gaLess ps) (List.range n) sl
  archived : GaArchived v A (a.g + 1) a.xs a.fs ps sl a.m (gaStart A a.m a.arch) m1 arch1
  sigma : gaSigma v P A (a.g + 1) (gaPhero v A (a.g + 1) (gaStored A m1 arch1) a.cum).1 arch1 = .ok sig
  ants : ∀ x ∈ b.xs, GaAntOf v P A (gaPhero v A (a.g + 1) (gaStored A m1 arch1) a.cum).2 sig arch1 x
  ev : b.evs = a.evs ++ asCalls (b.xs.zip b.fs)
  champ : Con.compareFc v.sq b.chF a.chF P.info.nec tol = .ok check
  oracle : GaOracled v P A tol
    { (gaPhero v A (a.g + 1) (gaStored A m1 arch1) a.cum).1 with
      nEval := if check = false then incU (gaPhero v A (a.g + 1) (gaStored A m1 arch1) a.cum).1.nEval else 1 } arch1 b.m b.arch
  cum : b.cum = (gaPhero v A (a.g + 1) (gaStored A m1 arch1) a.cum).2
  g : b.g = a.g + 1

/-- A generation. -/
structure GaFull (v : GaEnv K σ) (P : AProb K) (A : Gaco K) (tol : List (Fl K)) (n : Nat) (a b : GaState K) : Prop where
  popA : GaPop P n a.xs a.fs
  popB : GaPop P n b.xs b.fs
  archA : GaArch P A.ker (gaStart A a.m a.arch)
  archB : GaArch P A.ker (gaStart A b.m b.arch) ∧ GaArch P A.ker b.arch
  made : ∃ ps sl m1 arch1 sig check, GaWith v P A tol n a b ps sl m1 arch1 sig check

/-- state of the run -/
def gaSt (b : GaVars K) (k : Nat) (s : St K σ) : GaState K := ⟨k, b.m, b.arch, b.cum, s.pop.x, s.pop.f, s.pop.chF, s.evs⟩

/-- the first generations of a run, `k` of them -/
structure GaMid (v : GaEnv K σ) (P : AProb K) (A : Gaco K) (b0 : GaVars K) (s0 : St K σ) (k : Nat) (b : GaVars K) (s : St K σ) : Prop where
  tr : ∃ new, TrackedBy (GaBox P) P s0 new s ∧ new.length = k * s0.pop.id.length
  ch : s.pop.chX ≠ []
  arch : GaStop A b.m ∨ GaArch P A.ker (gaStart A b.m b.arch)
  real : 0 < k → GaArch P A.ker b.arch
  cum : b.cum.length = A.ker
  stop : b.stop = false
  run : Steps (GaFull v P A s0.pop.tol s0.pop.id.length) k (gaSt b0 0 s0) (gaSt b k s)

/-- a run that stopped early in generation `k` -/
def GaEarly (v : GaEnv K σ) (P : AProb K) (A : Gaco K) (b0 : GaVars K) (s0 : St K σ) (k : Nat) (b : GaVars K) (s : St K σ) : Prop :=
  ∃ b1, GaMid v P A b0 s0 (k - 1) b1 s ∧ GaStop A b.m ∧ b = { b1 with stop := true }

theorem gaPop_of {P : AProb K} {p : Pop.State K} (h : Inv P.info p) {ids : List Nat} (hid : p.id = ids) : GaPop P ids.length p.x p.f :=
  ⟨by rw [h.wf.xs, hid], by rw [h.wf.fs, hid], h.wf.dimX, h.wf.dimF⟩

section
variable [IsStrictOrderedRing K]

theorem wp_gaGen {v : GaEnv K σ} {rep : K → Prop} (hg : v.g.Lawful rep) (hsrt : ValidSort v.srt) (hrd : RoundOk v.rd) {P : AProb K}
    (hP : SaneBounds P.lb P.ub P.nix) (hnx : P.info.nx = P.lb.length) (hnobj : P.info.nobj = 1) {A : Gaco K} (hker : 2 ≤ A.ker)
    {bfe : Option (Batch K)} (hok : ∀ b, bfe = some b → BatchOk P b) {s0 : St K σ} (hk : A.ker ≤ s0.pop.id.length)
    {b0 b : GaVars K} {k : Nat} {s : St K σ} (h : GaMid v P A b0 s0 k b s) :
    wp (gaGen v P A bfe s0.pop.id.length (k + 1) b) (fun r s' => (r.2 = false → GaMid v P A b0 s0 (k + 1) r.1 s') ∧
      (r.2 = true → GaEarly v P A b0 s0 (k + 1) r.1 s')) (CmFailed (GaBox P) P bfe s0) s := by
  have hnx0 : 0 < P.info.nx := by rw [hnx]; exact List.length_pos_iff.mpr hP.nonempty
  have hmid := h
  obtain ⟨⟨new, ht, hl⟩, hch, ha, hreal, hcum, hstop, hrun⟩ := h
  have hpop := gaPop_of ht.inv ht.id
  have htol : s.pop.tol.length = P.info.nc := ht.inv.tol
  unfold gaGen
  split
  · rename_i h1
    exact ⟨(fun h => by cases h), fun _ => ⟨b, hmid, Or.inl h1, rfl⟩⟩
  · rename_i h1
    split
    · rename_i h2
      exact ⟨(fun h => by cases h), fun _ => ⟨b, hmid, Or.inr h2, rfl⟩⟩
    · rename_i h2
      replace ha : GaArch P A.ker (gaStart A b.m b.arch) := by
        rcases ha with (h | h) | h
        · exact absurd h h1
        · exact absurd h h2
        · exact h
      rw [wp_bind, wp_get', wp_bind]
      have hps : s.pop.f.mapM (gaPenalty v P s.pop.tol b.m.oracle) = .ok (s.pop.f.map (gaPenOf v P s0.pop.tol b.m.oracle)) := by
        rw [← ht.tol]
        exact Outcome.mapM_ok _ _ fun f hf => gaPenOf_eq hnobj htol (hpop.df f hf) _
      rw [hps, wp_lift_ok]
      generalize hpse : s.pop.f.map (gaPenOf v P s0.pop.tol b.m.oracle) = ps
      have hpsl : ps.length = s0.pop.id.length := by rw [← hpse, List.length_map, hpop.fl]
      obtain ⟨sl, hsl, hsort⟩ := stdSort_sat (lt := gaLess ps) hsrt (swo_gaLess ps (List.range s0.pop.id.length))
      rw [wp_bind, hsl, wp_lift_ok, wp_bind]
      obtain ⟨m1, arch1, har1, har2⟩ := gaArchive_ok (v := v) (gen := k + 1) hsrt (by omega) hpop hpsl hsort.perm hk ha
      obtain ⟨ha1, _⟩ := gaArchived_arch hpop hsort.perm hk ha har2
      rw [har1, wp_lift_ok]
      dsimp only
      generalize hph : gaPhero v A (k + 1) (gaStored A m1 arch1) b.cum = ph
      have hphl : ph.2.length = A.ker := by rw [← hph]; exact gaPhero_length hcum
      obtain ⟨sig, hsig1, hsig2, _⟩ := gaSigma_ok (v := v) hP hnx hker ha1 (k + 1) ph.1
      rw [wp_bind, hsig1, wp_lift_ok, wp_bind, wp_onRng]
      refine wp_gaAnts hg hP hnx hker hphl hsig2 ha1 ?_ _
      intro ants e hal hants
      have hbox : ∀ x ∈ ants, GaBox P x := fun x hx => gaBox_of hrd hP hnx (hants x hx)
      rw [wp_bind]
      refine (wp_gaEval (B := GaBox P) hnx0 (by omega) hok (tracked_rng ht e) hal (fun x hx => (hbox x hx).1) hbox).mono ?_ (fun _ _ h => h)
      rintro _ s1 ⟨hx1, hch1', ht1⟩
      have hch1 := hch1' hch
      rw [wp_bind, wp_get', wp_bind]
      have hpop1 := gaPop_of ht1.inv ht1.id
      have hnf : P.info.nf = P.info.nc + 1 := by simp only [Info.nf, Info.nc]; omega
      have chf : ∀ p : Pop.State K, Inv P.info p → p.chX ≠ [] → Con.Valid p.chF P.info.nec s0.pop.tol := by
        intro p hp hne
        rcases hp.ch with h | h
        · exact absurd h.1 hne
        · refine ⟨?_, ?_⟩
          · rw [h.2, ← ht.tol, htol, hnf]
          · rw [← ht.tol, htol]; simp only [Info.nc]; omega
      obtain ⟨check, hcheck⟩ := Con.compareFc_isOk (sq := v.sq) (chf _ ht1.inv hch1) (chf _ ht.inv hch)
      rw [ht1.tol, hcheck, wp_lift_ok, wp_bind]
      obtain ⟨m2, arch2, ho1, ho2⟩ := gaOracle_ok (v := v) (tol := s0.pop.tol) hnobj (by rw [← ht.tol]; exact htol) (A := A) (by omega)
        (m := { ph.1 with nEval := if check = false then incU ph.1.nEval else 1 }) ha1
      rw [ho1, wp_lift_ok]
      obtain ⟨ha2, _, hcnt, hst⟩ := gaOracled_arch ha1 ho2
      have hst2 : A.memory = true → m2.arch = arch2 := by
        refine hst ?_
        intro hm
        dsimp only
        rw [← hph]
        obtain ⟨q, hq⟩ := gaPhero_mem v A (k + 1) (gaStored A m1 arch1) b.cum
        rw [hq]
        dsimp only
        unfold gaStored
        rw [if_pos hm]
      have hgs : GaArch P A.ker (gaStart A m2 arch2) := by
        unfold gaStart
        split
        · rename_i hc
          rw [hst2 hc.1]; exact ha2
        · exact ha2
      have hlz : (s1.pop.x.zip s1.pop.f).length = s0.pop.id.length := by
        rw [List.length_zip, hpop1.xl, hpop1.fl, Nat.min_self]
      refine ⟨fun _ => ⟨⟨_, ht1, ?_⟩, hch1, Or.inr hgs, fun _ => ha2, hphl, rfl, Steps.snoc hrun ⟨hpop, hpop1, ha, ⟨hgs, ha2⟩, ps, sl, m1, arch1, sig, check, ?_⟩⟩,
        (fun h => by cases h)⟩
      · simp only [List.length_append, hl, asCalls, List.length_map, hlz]
        ring
      · dsimp only [gaSt]
        refine ⟨?_, hpse.symm, hsort, har2, ?_, ?_, ?_, hcheck, ?_, ?_, rfl⟩
        · rintro (h | h)
          · exact h1 h
          · exact h2 h
        · rw [hph]; exact hsig1
        · rw [hph, hx1]; exact hants
        · dsimp only
          rw [ht1.evs, ← List.append_assoc, ← ht.evs]
        · rw [hph]; exact ho2
        · rw [hph]

/-- the members at the beginning -/
def gaInit (P : AProb K) (A : Gaco K) (m : GaMem K) : GaVars K :=
  ⟨gaCount A m, List.replicate A.ker (List.replicate (1 + P.info.nx + P.info.nf) (.fin 1)), List.replicate A.ker (.fin 0), false⟩

/-- The members are as they were left by the constructor or by a run with the same parameters and a problem of the same size: with memory
and after the first run there is an archive, unless a criterion to stop holds. -/
def GaMemOk (P : AProb K) (A : Gaco K) (m : GaMem K) : Prop := A.memory = true → 1 ≤ m.counter → GaStop A m ∨ GaArch P A.ker m.arch

/-- The population at the end of a full run, from the one of the last generation. -/
structure GaEnd (P : AProb K) (A : Gaco K) (arch : List (List (Fl K))) (s s' : St K σ) : Prop where
  x : s'.pop.x = if A.memory = true then s.pop.x else arch.map (fun r => (gaInd P r).1) ++ s.pop.x.drop A.ker
  f : s'.pop.f = if A.memory = true then s.pop.f else arch.map (fun r => (gaInd P r).2) ++ s.pop.f.drop A.ker
  evs : s'.evs = s.evs

/-- A run. -/
def GaRan (v : GaEnv K σ) (P : AProb K) (A : Gaco K) (m : GaMem K) (s : St K σ) (m' : GaMem K) (s' : St K σ) : Prop :=
  (∃ new, TrackedBy (GaBox P) P s new s') ∧ ∃ b : GaVars K, m' = b.m ∧
    ((∃ s1, GaMid v P A (gaInit P A m) s A.gens b s1 ∧ GaEnd P A b.arch s1 s') ∨ ∃ k ≤ A.gens, 0 < k ∧ GaEarly v P A (gaInit P A m) s k b s')

theorem ga_run {v : GaEnv K σ} {rep : K → Prop} (hg : v.g.Lawful rep) (hsrt : ValidSort v.srt) (hrd : RoundOk v.rd) {P : AProb K}
    (hP : SaneBounds P.lb P.ub P.nix) (hnx : P.info.nx = P.lb.length) (hst : P.info.stochastic = false) (hnobj : P.info.nobj = 1) {A : Gaco K} (hker : 2 ≤ A.ker)
    (hgens : A.gens + 1 < 2 ^ 32) (hgens0 : A.gens ≠ 0) {bfe : Option (Batch K)} (hok : ∀ b, bfe = some b → BatchOk P b)
    {s : St K σ} (hi : Inv P.info s.pop) (hch : s.pop.chX ≠ []) (hk : A.ker ≤ s.pop.id.length) {m : GaMem K} (hm : GaMemOk P A m)
    {fuel : Nat} (hfuel : A.gens < fuel) :
    wp (gaEvolve v P A bfe fuel m) (fun m' s' => GaRan v P A m s m' s') (CmFailed (GaBox P) P bfe s) s := by
  have hnx0 : 0 < P.info.nx := by rw [hnx]; exact List.length_pos_iff.mpr hP.nonempty
  unfold gaEvolve
  rw [wp_bind, wp_get]
  dsimp only
  rw [if_neg (by omega), hst, if_neg (by simp), if_neg hgens0, if_neg (by omega), if_neg (by omega), if_neg (by omega), wp_bind]
  refine (wp_genLoop_stop hgens (GaMid v P A (gaInit P A m) s) (GaEarly v P A (gaInit P A m) s) ?_ fuel 0 (gaInit P A m) s (by omega) (by omega) ?_).mono ?_
    (fun _ _ h => h)
  · intro k b s1 _ h
    exact wp_gaGen hg hsrt hrd hP hnx hnobj hker hok hk h
  · refine ⟨⟨[], tracked_refl hi, by simp⟩, hch, ?_, fun h => absurd h (by omega), by simp [gaInit], rfl, .refl _⟩
    have hcm : (gaCount A m).arch = m.arch := by unfold gaCount; split <;> rfl
    have hcs : GaStop A m → GaStop A (gaCount A m) := by unfold gaCount GaStop; split <;> exact id
    unfold gaStart gaInit
    dsimp only
    split
    · rename_i hc
      rw [hcm]
      refine (hm hc.1 ?_).imp hcs id
      by_contra h0
      have : m.counter = 0 := by omega
      have h2 := hc.2
      unfold gaCount at h2
      rw [if_pos hc.1] at h2
      dsimp only at h2
      rw [this] at h2
      revert h2
      decide
    · refine Or.inr ⟨by simp, fun r hr => ?_⟩
      rw [List.eq_of_mem_replicate hr, List.length_replicate]
  · rintro b s1 (h | ⟨k, hk1, hk2, h⟩)
    · obtain ⟨new, ht, hl⟩ := h.tr
      have ha := h.real (by omega)
      have hxl : s1.pop.x.length = s.pop.id.length := by rw [ht.inv.wf.xs, ht.id]
      have hfl : s1.pop.f.length = s.pop.id.length := by rw [ht.inv.wf.fs, ht.id]
      by_cases hmem : A.memory = true
      · rw [if_neg (by rw [hmem]; simp), wp_pure]
        exact ⟨⟨new, ht⟩, b, rfl, Or.inl ⟨s1, h, by rw [if_pos hmem], by rw [if_pos hmem], rfl⟩⟩
      · rw [if_pos ⟨h.stop, by simpa using hmem⟩, wp_bind]
        refine (wp_range (fun i (_ : Unit) (s' : St K σ) => TrackedBy (GaBox P) P s new s' ∧
          s'.pop.x = (b.arch.take i).map (fun r => (gaInd P r).1) ++ s1.pop.x.drop i ∧
          s'.pop.f = (b.arch.take i).map (fun r => (gaInd P r).2) ++ s1.pop.f.drop i) A.ker () s1 ⟨ht, by simp, by simp⟩ ?_).mono ?_ (fun _ _ h => h)
        · rintro i _ s2 hi' ⟨ht2, hx2, hf2⟩
          have hib : i < b.arch.length := by rw [ha.1]; exact hi'
          have hr := ha.2 _ (List.getElem_mem hib)
          unfold gaFinal
          rw [wp_bind, wp_lift_get hib, wp_bind, gaSlice_ok (by omega), wp_lift_ok, wp_bind, gaSlice_ok (by omega), wp_lift_ok]
          refine wp_setXF_tracked hnx0 (by omega) ht2 (by rw [ht2.id]; omega) (gaSlice_length (by omega)) (gaSlice_length (by omega)) ?_
            (fun _ _ h => cmFailed_of h)
          intro s3 ht3 _ hx3 hf3 _
          have put : ∀ (g : List (Fl K) → List (Fl K)) (l : List (List (Fl K))), i < l.length →
              ((b.arch.take i).map g ++ l.drop i).set i (g b.arch[i]) = (b.arch.take (i + 1)).map g ++ l.drop (i + 1) := by
            intro g l hil
            have hlen : ((b.arch.take i).map g).length = i := by simp; omega
            rw [List.set_append_right _ _ (by omega), hlen, Nat.sub_self, List.drop_eq_getElem_cons hil, List.set_cons_zero, List.take_succ_eq_append_getElem hib,
              List.map_append, List.append_assoc]
            rfl
          refine ⟨ht3, ?_, ?_⟩
          · rw [hx3, hx2]
            exact put (fun r => (gaInd P r).1) _ (by omega)
          · rw [hf3, hf2]
            exact put (fun r => (gaInd P r).2) _ (by omega)
        · rintro _ s2 ⟨ht2, hx2, hf2⟩
          have hta : b.arch.take A.ker = b.arch := by rw [← ha.1, List.take_length]
          rw [hta] at hx2 hf2
          exact ⟨⟨new, ht2⟩, b, rfl, Or.inl ⟨s1, h, by rw [if_neg hmem]; exact hx2, by rw [if_neg hmem]; exact hf2, by rw [ht2.evs, ht.evs]⟩⟩
    · have he := h
      obtain ⟨b1, h1, _, rfl⟩ := h
      obtain ⟨new, ht, _⟩ := h1.tr
      rw [if_neg (by simp), wp_pure]
      exact ⟨⟨new, ht⟩, _, rfl, Or.inr ⟨k, hk1, hk2, he⟩⟩

end

end Verif.Props
