import Verif.Proof.HyVol

/-!
# HyCon3D: start, end and order of the points
-/

set_option autoImplicit false

namespace Verif.Hv

open Verif Verif.Spec

variable {low : ℝ}

/-- the state before the loop -/
noncomputable def hyStart (low big : ℝ) (r : List ℝ) (P : List (List ℝ)) : HyState ℝ :=
  ⟨hyInsert (RN low) (senY low r, P.length + 2) (hyInsert (RN low) (senX low r, P.length + 1) [(P.getD 0 [], 0)]),
    [⟨cX r, cY r, big, cX (P.getD 0 []), cY (P.getD 0 []), cZ (P.getD 0 [])⟩] :: List.replicate (P.length + 2) [],
    List.replicate P.length 0⟩

theorem hyStart_inv {big : ℝ} {r : List ℝ} {P : List (List ℝ)} (hP : HyPts low r P) :
    ∃ pre M, HyInv low r P (withSen low r P) 1 (cZ (P.getD 0 [])) (hyStart low big r P) pre M := by
  have h0 : 0 < P.length := List.length_pos_iff.mpr hP.ne
  have hab := hP.above 0 h0
  have hbe := hP.below 0 h0
  have hl := hP.low_lt
  obtain ⟨w1, w2, w3, w4⟩ := withSen_get (low := low) (r := r) (P := P)
  have hlev : ∀ j, j < P.length → cZ (P.getD 0 []) ≤ cZ (P.getD j []) := fun j hj => hP.level 0 j (by omega) hj
  have hg0 : (hyStart low big r P).L.getD 0 [] =
      [⟨cX r, cY r, big, cX (P.getD 0 []), cY (P.getD 0 []), cZ (P.getD 0 [])⟩] := rfl
  have hgj : ∀ j, 1 ≤ j → (hyStart low big r P).L.getD j [] = [] := by
    intro j hj
    obtain ⟨i, rfl⟩ : ∃ i, j = i + 1 := ⟨j - 1, by omega⟩
    change (List.replicate (P.length + 2) ([] : List (Box3 ℝ))).getD i [] = []
    rw [List.getD_eq_getElem?_getD, List.getElem?_replicate]
    split <;> rfl
  have hc : ∀ j, (hyStart low big r P).c.getD j 0 = 0 := by
    intro j
    change (List.replicate P.length (0 : ℝ)).getD j 0 = 0
    rw [List.getD_eq_getElem?_getD, List.getElem?_replicate]
    split <;> rfl
  have hacc : ∀ j, j < P.length → (hyStart low big r P).c.getD j 0 + acct (cZ (P.getD 0 [])) ((hyStart low big r P).L.getD j []) =
      Vol r P j (cZ (P.getD 0 [])) := by
    intro j hj
    rw [hc, Vol_zero (hlev j hj)]
    by_cases hj0 : j = 0
    · subst hj0; rw [hg0]; simp
    · rw [hgj j (by omega)]; simp
  obtain ⟨p0, hp0⟩ : ∃ p, p = P.getD 0 [] := ⟨_, rfl⟩
  rw [← hp0] at hab hbe hg0 hacc ⊢
  have hps0 := w1 0 h0
  rw [← hp0] at hps0
  rcases hbe.1.lt_or_eq with hx | hx
  · refine ⟨[], [(p0, 0)], ⟨?_, by simp, ?_, by simp, by simp, ?_, by simp [hyStart], by simp [hyStart], ?_, ?_, ?_⟩,
      ?_, ?_, ?_, ?_, hgj, hacc⟩
    · change hyInsert (RN low) (senY low r, P.length + 2) (hyInsert (RN low) (senX low r, P.length + 1) [(P.getD 0 [], 0)]) = _
      rw [← hp0]
      have e1 : hyInsert (RN low) (senX low r, P.length + 1) ([] ++ [(p0, 0)]) = [] ++ (senX low r, P.length + 1) :: [(p0, 0)] :=
        hyInsert_ok (by simp) (by simp; exact hx)
      have e2 : hyInsert (RN low) (senY low r, P.length + 2) ([(senX low r, P.length + 1), (p0, 0)] ++ []) =
          [(senX low r, P.length + 1), (p0, 0)] ++ [(senY low r, P.length + 2)] := by
        refine hyInsert_ok ?_ (by simp)
        intro e he
        simp only [List.mem_cons, List.not_mem_nil, or_false] at he
        rcases he with rfl | rfl
        · exact hl.1.le
        · exact hab.1.le
      simp only [List.nil_append] at e1
      rw [e1]
      simp only [List.append_nil] at e2
      rw [e2]
      rfl
    · intro e he; rw [List.mem_singleton.mp he]; exact ⟨h0, hps0⟩
    · intro e he; rw [List.mem_singleton.mp he]; exact ⟨hab.1, hab.2, hx, hbe.2.1⟩
    · intro e he; rw [List.mem_singleton.mp he, hg0]
      exact ⟨rfl, hx, rfl, hbe.2.1, le_rfl, by simp, trivial⟩
    · intro e he x y hr
      rw [List.mem_singleton.mp he] at hr ⊢
      rw [hg0, inRow_cons] at hr
      rcases hr with hr | hr
      · refine ⟨hr.1, hr.2.2.1, fun e' he' hne => ?_⟩
        rw [List.mem_singleton.mp he'] at hne
        exact absurd rfl hne
      · exact absurd hr (inRow_nil _ _)
    · exact ⟨hgj _ (by omega), hgj _ (by omega)⟩
    · intro e he
      rw [List.mem_singleton.mp he]
      exact ⟨by simp, hp0.symm⟩
    · intro e he x y
      rw [List.mem_singleton.mp he, hg0, inRow_cons]
      unfold Excl
      simp only [← hp0]
      constructor
      · rintro (hr | hr)
        · exact ⟨hr.1, hr.2.1, hr.2.2.1, hr.2.2.2, fun m hm hm0 => absurd (Nat.lt_one_iff.mp hm) hm0⟩
        · exact absurd hr (inRow_nil _ _)
      · rintro ⟨h1, h2, h3, h4, -⟩
        exact Or.inl ⟨h1, h2, h3, h4⟩
    · intro j hj hn
      exact absurd (by simp; omega) hn
    · intro m hm x y _ h1 h2
      have : m = 0 := by omega
      subst this
      rw [← hp0] at h1 h2
      exact ⟨(p0, 0), by simp, h1, h2⟩
  · refine ⟨[(p0, 0)], [], ⟨?_, ?_, by simp, by simp, by simp, by simp, by simp [hyStart], by simp [hyStart], by simp, by simp,
      ?_⟩, ?_, by simp, ?_, ?_, hgj, hacc⟩
    · change hyInsert (RN low) (senY low r, P.length + 2) (hyInsert (RN low) (senX low r, P.length + 1) [(P.getD 0 [], 0)]) = _
      rw [← hp0]
      have e1 : hyInsert (RN low) (senX low r, P.length + 1) ([(p0, 0)] ++ []) = [(p0, 0)] ++ [(senX low r, P.length + 1)] :=
        hyInsert_ok (by simp; exact hx.ge) (by simp)
      have e2 : hyInsert (RN low) (senY low r, P.length + 2) ([(p0, 0), (senX low r, P.length + 1)] ++ []) =
          [(p0, 0), (senX low r, P.length + 1)] ++ [(senY low r, P.length + 2)] := by
        refine hyInsert_ok ?_ (by simp)
        intro e he
        simp only [List.mem_cons, List.not_mem_nil, or_false] at he
        rcases he with rfl | rfl
        · exact hab.1.le
        · exact hl.1.le
      simp only [List.append_nil] at e1
      rw [e1]
      simp only [List.append_nil] at e2
      rw [List.singleton_append, e2]
      rfl
    · intro e he; rw [List.mem_singleton.mp he]; exact hx
    · exact ⟨hgj _ (by omega), hgj _ (by omega)⟩
    · intro e he
      rw [List.append_nil] at he
      rw [List.mem_singleton.mp he]
      exact ⟨by simp, hp0.symm⟩
    · intro j hj _
      have : j = 0 := by omega
      subst this
      refine ⟨fun w => ?_, fun x y => ?_⟩
      · rw [hg0, acct_cons]
        simp only [acct_nil]
        rw [hx]; ring
      · rintro ⟨h1, h2, -⟩
        rw [← hp0, hx] at h1
        exact absurd (h2.trans_le h1) (lt_irrefl _)
    · intro m hm x y hxr h1 _
      have : m = 0 := by omega
      subst this
      rw [← hp0, hx] at h1
      exact absurd (hxr.trans_le h1) (lt_irrefl _)

/-- putting the values back into the order of the points -/
theorem hyFix_ok {prs : List (Node ℝ)} {n : Nat} (hidx : (prs.map (·.2)).Perm (List.range n)) {c : List ℝ}
    (hc : c.length = prs.length) (g : Nat → ℝ)
    (hg : ∀ (i : Nat) (e : Node ℝ), prs[i]? = some e → c[i]? = some (g e.2)) :
    hyFix prs 0 c = .ok ((List.range n).map g) := by
  have hn : prs.length = n := by simpa using hidx.length_eq
  have key : ∀ (l : List (Node ℝ × ℝ)) (o : List ℝ), o.length = n → (∀ x ∈ l, x.1.2 < n ∧ x.2 = g x.1.2) →
      ∃ o', l.foldlM (fun o x => Outcome.set o x.1.2 x.2) o = .ok o' ∧ o'.length = n ∧
        ∀ j, o'.getD j 0 = if j ∈ l.map (·.1.2) then g j else o.getD j 0 := by
    intro l
    induction l with
    | nil => intro o ho _; exact ⟨o, rfl, ho, by simp⟩
    | cons x l ih =>
      intro o ho hl
      have hx := hl x (by simp)
      rw [List.foldlM_cons, Outcome.set_of_lt (by rw [ho]; exact hx.1), Outcome.bind_ok]
      obtain ⟨o', h1, h2, h3⟩ := ih (o.set x.1.2 x.2) (by simpa using ho) (fun y hy => hl y (by simp [hy]))
      refine ⟨o', h1, h2, fun j => ?_⟩
      rw [h3, getD_set, ho]
      simp only [List.map_cons, List.mem_cons]
      by_cases hj : j ∈ l.map (·.1.2)
      · rw [if_pos hj, if_pos (Or.inr hj)]
      · rw [if_neg hj]
        by_cases hjx : j = x.1.2
        · rw [if_pos ⟨hjx, hx.1⟩, if_pos (Or.inl hjx), hx.2, hjx]
        · rw [if_neg (fun h => hjx h.1), if_neg (by tauto)]
  have hmem : ∀ x ∈ prs.zip c, x.1.2 < n ∧ x.2 = g x.1.2 := by
    intro x hx
    obtain ⟨i, hi, hxi⟩ := List.getElem_of_mem hx
    rw [List.getElem_zip] at hxi
    have hi' : i < prs.length ∧ i < c.length := by simpa using hi
    have h1 := hg i prs[i] (List.getElem?_eq_getElem hi'.1)
    rw [List.getElem?_eq_getElem hi'.2] at h1
    have h2 := Option.some.inj h1
    rw [← hxi]
    refine ⟨?_, h2⟩
    have : prs[i].2 ∈ prs.map (·.2) := List.mem_map.mpr ⟨_, List.getElem_mem hi'.1, rfl⟩
    exact List.mem_range.mp (hidx.mem_iff.mp this)
  obtain ⟨o', h1, h2, h3⟩ := key (prs.zip c) (List.replicate prs.length 0) (by simpa using hn) hmem
  unfold hyFix
  rw [h1]
  congr 1
  have hz : (prs.zip c).map (·.1.2) = prs.map (·.2) := by
    have : (prs.zip c).map (·.1.2) = ((prs.zip c).map Prod.fst).map (·.2) := by rw [List.map_map]; rfl
    rw [this, List.map_fst_zip (by omega)]
  apply List.ext_getElem?
  intro j
  by_cases hj : j < n
  · have h4 := h3 j
    rw [hz, if_pos (hidx.mem_iff.mpr (List.mem_range.mpr hj))] at h4
    rw [List.getElem?_map, List.getElem?_range hj]
    rw [List.getD_eq_getElem?_getD, List.getElem?_eq_getElem (by omega)] at h4
    rw [List.getElem?_eq_getElem (by omega)]
    simpa using h4
  · rw [List.getElem?_eq_none (by omega), List.getElem?_eq_none (by simp; omega)]

theorem zipIdx_idx {α : Type} (l : List α) : (l.zipIdx.map (·.2)) = List.range l.length := by
  rw [List.zipIdx_map_snd, List.range_eq_range']

/-- The whole of `hv3d::contributions` on points in the order of the sweep. -/
theorem hv3dContributions_ok {srt : Srt ℝ} {srt2 : (Node ℝ → Node ℝ → Bool) → List (Node ℝ) → List (Node ℝ)} {big : ℝ}
    {sorting : Bool} {pts : List (List ℝ)} {r : List ℝ} (hd : dimOk 3 pts r = true) {prs : List (Node ℝ)}
    (hprs : hyPairs (RN low) srt2 sorting pts = .ok prs) (hperm : prs.Perm pts.zipIdx)
    (hP : HyPts low r (prs.map (·.1))) (g : Nat → ℝ)
    (hg : ∀ (i : Nat) (e : Node ℝ), prs[i]? = some e → Vol r (prs.map (·.1)) i (cZ r) = g e.2)
    (hw : wfgContributions (RN low) srt 2 pts r = .ok ((List.range pts.length).map g)) :
    hv3dContributions (RN low) srt srt2 big sorting pts r = .ok ((List.range pts.length).map g) := by
  unfold hv3dContributions
  rw [hd, hprs]
  simp only [Bool.not_true, Bool.false_eq_true, if_false, Outcome.bind_ok]
  obtain ⟨P, hPd⟩ : ∃ P, P = prs.map (·.1) := ⟨_, rfl⟩
  have hlen : prs.length = P.length := by rw [hPd]; simp
  have hlen2 : prs.length = pts.length := by simpa using hperm.length_eq
  rw [← hPd] at hP hg
  have hps : prs.map (·.1) ++ [[(RN low).low, (RN low).low, (RN low).at r 2], [(RN low).at r 0, (RN low).low, (RN low).low],
      [(RN low).low, (RN low).at r 1, (RN low).low]] = withSen low r P := by rw [← hPd]; rfl
  rw [hps]
  have h0 : 0 < P.length := List.length_pos_iff.mpr hP.ne
  rw [Outcome.get_eq_ok_iff.mpr ((withSen_get (low := low) (r := r) (P := P)).1 0 h0)]
  simp only [Outcome.bind_ok, hlen]
  obtain ⟨pre, M, hinv⟩ := hyStart_inv (low := low) (big := big) hP
  have hloop := hyLoop_ok (big := big) hP P.length 1 (by omega) h0 (by omega) hinv
  change (hyLoop (RN low) big (withSen low r P) (List.range' 1 P.length) (hyStart low big r P) >>= _) = _
  rcases hloop with hn | ⟨s', hs, hc, hv⟩
  · rw [hn]
    exact hw
  · rw [hs]
    simp only [Outcome.bind_ok]
    refine hyFix_ok ?_ (by rw [hc, hlen]) g ?_
    · have := hperm.map (·.2)
      rwa [zipIdx_idx] at this
    · intro i e he
      have hi : i < P.length := by rw [← hlen]; exact (List.getElem?_eq_some_iff.mp he).1
      rw [← hg i e he, ← hv i hi, List.getElem?_eq_getElem (by omega)]
      simp [List.getD_eq_getElem?_getD, hc, hi]

end Verif.Hv
