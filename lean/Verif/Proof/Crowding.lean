import Verif.Model.Crowding
import Verif.Proof.Front2d

/-! Helper lemmas about the crowding distance. -/

set_option autoImplicit false

namespace Verif.MO

open Verif Outcome Spec

variable {K : Type} [LinearOrder K]

theorem getD_of_lt {α : Type} {l : List α} {i : Nat} {d : α} (h : i < l.length) :
    l.getD i d = l[i] := by simp [List.getD, List.getElem?_eq_getElem h]

/-- value of objective `i` of point `a` -/
def vl (pts : List (List (Fl K))) (a i : Nat) : Fl K :=
  match val pts a i with
  | .ok x => x
  | _ => .nan

theorem val_ok {pts : List (List (Fl K))} {M : Nat} (hM : ∀ p ∈ pts, p.length = M) {a i : Nat}
    (ha : a < pts.length) (hi : i < M) : val pts a i = .ok (vl pts a i) := by
  have h1 : i < pts[a].length := by rw [hM _ (List.getElem_mem ha)]; exact hi
  simp [vl, val, get_of_lt ha, get_of_lt h1]

theorem crowdCmp_iff {pts : List (List (Fl K))} {M : Nat} (hM : ∀ p ∈ pts, p.length = M)
    {a b i : Nat} (ha : a < pts.length) (hb : b < pts.length) (hi : i < M) :
    crowdCmp pts i a b = true ↔ vl pts a i < vl pts b i := by
  simp [crowdCmp, val_ok hM ha hi, val_ok hM hb hi]

/-- new value at position `p` of the sorted indices -/
def posVal (op : Fl.Ops K) (pts : List (List (Fl K))) (idx : List Nat) (i : Nat) (p : Nat)
    (x : Fl K) : Fl K :=
  op.add x (op.div (op.sub (vl pts (idx.getD (p + 1) 0) i) (vl pts (idx.getD (p - 1) 0) i))
    (op.sub (vl pts (idx.getD (pts.length - 1) 0) i) (vl pts (idx.getD 0 0) i)))

theorem crowdLoop_sat (op : Fl.Ops K) {pts : List (List (Fl K))} {M : Nat}
    (hM : ∀ p ∈ pts, p.length = M) {i : Nat} (hi : i < M) {idx : List Nat}
    (hp : idx.Perm (List.range pts.length)) (hn : 2 ≤ pts.length) {ret : List (Fl K)}
    (hret : ret.length = pts.length) :
    ((List.range (pts.length - 2)).foldlM (crowdStep op pts idx i
      (op.sub (vl pts (idx.getD (pts.length - 1) 0) i) (vl pts (idx.getD 0 0) i))) ret).Sat (fun r =>
        r.length = pts.length ∧
        ∀ (p a : Nat), idx[p]? = some a → r[a]? =
          if p = 0 ∨ p = pts.length - 1 then ret[a]? else
            (ret[a]?).map (posVal op pts idx i p)) := by
  have hlen : idx.length = pts.length := by simpa using hp.length_eq
  have hnd : idx.Nodup := hp.nodup_iff.mpr List.nodup_range
  have hlt : ∀ p (h : p < idx.length), idx[p] < pts.length := by
    intro p h
    have := hp.mem_iff.mp (List.getElem_mem h)
    simpa using this
  refine (range_sat (fun j r => r.length = pts.length ∧
        ∀ (p a : Nat), idx[p]? = some a → r[a]? =
          if p = 0 ∨ j < p then ret[a]? else
            (ret[a]?).map (posVal op pts idx i p)) _ _ ?_ ?_).mono ?_
  · refine ⟨hret, ?_⟩
    intro p a _
    rw [if_pos (by omega)]
  · rintro j r hj ⟨h1, h2⟩
    have e1 : j + 1 < idx.length := by omega
    have e2 : j + 2 < idx.length := by omega
    have e0 : j < idx.length := by omega
    have hc : idx[j + 1] < r.length := by rw [h1]; exact hlt _ _
    unfold crowdStep
    rw [get_of_lt e1, get_of_lt e2, get_of_lt e0]
    simp only [bind_ok]
    rw [val_ok hM (hlt _ e2) hi, val_ok hM (hlt _ e0) hi]
    simp only [bind_ok]
    rw [modifyAt_of_lt hc, sat_ok]
    refine ⟨by simpa using h1, ?_⟩
    intro p a hpa
    obtain ⟨hpl, rfl⟩ := List.getElem?_eq_some_iff.mp hpa
    rw [List.getElem?_set]
    by_cases hpj : j + 1 = p
    · subst hpj
      rw [if_pos rfl, if_pos hc, if_neg (by omega)]
      have h3 := h2 (j + 1) _ hpa
      rw [if_pos (by omega), List.getElem?_eq_getElem hc] at h3
      rw [← h3]
      simp only [Option.map_some, posVal, Nat.add_sub_cancel]
      rw [getD_of_lt e2, getD_of_lt e0]
    · rw [if_neg (fun h => hpj ((List.Nodup.getElem_inj_iff hnd).mp h)), h2 p _ hpa]
      by_cases hq : p = 0 ∨ j < p
      · rw [if_pos hq, if_pos (by omega)]
      · rw [if_neg hq, if_neg (by omega)]
  · rintro r ⟨h1, h2⟩
    refine ⟨h1, ?_⟩
    intro p a hpa
    have hpl := (List.getElem?_eq_some_iff.mp hpa).1
    rw [h2 p a hpa]
    by_cases hq : p = 0 ∨ p = pts.length - 1
    · rw [if_pos hq, if_pos (by omega)]
    · rw [if_neg hq, if_neg (by omega)]

theorem crowdPass_sat (op : Fl.Ops K) {srt : (Nat → Nat → Bool) → List Nat → List Nat}
    (hsrt : ValidSort srt) {pts : List (List (Fl K))} {M : Nat}
    (hM : ∀ p ∈ pts, p.length = M) {i : Nat} (hi : i < M) (hn : 2 ≤ pts.length)
    {s : List Nat × List (Fl K)}
    (hp : s.1.Perm (List.range pts.length)) (hret : s.2.length = pts.length) :
    (crowdPass op srt pts s i).Sat (fun s' =>
      s'.1.Perm (List.range pts.length) ∧
      s'.1.Pairwise (fun a b => vl pts a i ≤ vl pts b i) ∧
      s'.2.length = pts.length ∧
      ∀ (p a : Nat), s'.1[p]? = some a → ∃ x, s.2[a]? = some x ∧ s'.2[a]? =
        some (if p = 0 ∨ p = pts.length - 1 then .pinf else posVal op pts s'.1 i p x)) := by
  have hmem : ∀ a ∈ s.1, a < pts.length := fun a ha => by simpa using hp.mem_iff.mp ha
  have hswo : swoOn (crowdCmp pts i) s.1 = true :=
    swoOn_of_key (fun a => vl pts a i)
      (fun a ha b hb => crowdCmp_iff hM (hmem a ha) (hmem b hb) hi)
  unfold crowdPass
  refine (stdSort_sat hsrt hswo).bind ?_
  rintro idx ⟨hperm, hsorted⟩
  have hp' : idx.Perm (List.range pts.length) := hperm.trans hp
  have hlen : idx.length = pts.length := by simpa using hp'.length_eq
  have hnd : idx.Nodup := hp'.nodup_iff.mpr List.nodup_range
  have hlt : ∀ p (h : p < idx.length), idx[p] < pts.length := by
    intro p h
    have := hp'.mem_iff.mp (List.getElem_mem h)
    simpa using this
  have h0 : 0 < idx.length := by omega
  have hl : pts.length - 1 < idx.length := by omega
  rw [get_of_lt h0, get_of_lt hl]
  simp only [bind_ok]
  rw [set_of_lt (by rw [hret]; exact hlt _ h0), bind_ok,
    set_of_lt (by simp only [List.length_set]; rw [hret]; exact hlt _ hl), bind_ok,
    val_ok hM (hlt _ hl) hi, val_ok hM (hlt _ h0) hi]
  simp only [bind_ok]
  have hloop := crowdLoop_sat op hM hi hp' hn
    (ret := (s.2.set idx[0] Fl.pinf).set idx[pts.length - 1] Fl.pinf) (by simpa using hret)
  rw [getD_of_lt hl, getD_of_lt h0] at hloop
  refine hloop.bind ?_
  rintro r ⟨h1, h2⟩
  simp only [pure_eq, sat_ok]
  refine ⟨hp', ?_, h1, ?_⟩
  · have hmem' : ∀ a ∈ idx, a < pts.length := fun a ha => by simpa using hp'.mem_iff.mp ha
    rw [List.pairwise_iff_getElem] at hsorted ⊢
    intro a b ha hb hab
    have := hsorted a b ha hb hab
    rw [← Bool.not_eq_true, crowdCmp_iff hM (hlt _ hb) (hlt _ ha) hi] at this
    exact not_lt.mp this
  · intro p a hpa
    obtain ⟨hpl, rfl⟩ := List.getElem?_eq_some_iff.mp hpa
    have hx : idx[p] < s.2.length := by rw [hret]; exact hlt _ _
    refine ⟨s.2[idx[p]], List.getElem?_eq_getElem hx, ?_⟩
    rw [h2 p _ hpa]
    simp only [List.getElem?_set, List.length_set, List.Nodup.getElem_inj_iff hnd]
    by_cases hq : p = 0 ∨ p = pts.length - 1
    · rw [if_pos hq, if_pos hq]
      rcases hq with rfl | rfl
      · by_cases h3 : pts.length - 1 = 0
        · omega
        · rw [if_neg h3, if_pos rfl, if_pos hx]
      · rw [if_pos rfl, if_pos hx]
    · rw [if_neg hq, if_neg hq, if_neg (by omega), if_neg (by omega),
        List.getElem?_eq_getElem hx, Option.map_some]

/-- crowding distance never fails on at least two points of at least two objectives -/
theorem crowding_isOk (op : Fl.Ops K) {srt : (Nat → Nat → Bool) → List Nat → List Nat}
    (hsrt : ValidSort srt) {pts : List (List (Fl K))} {M : Nat}
    (hM : ∀ p ∈ pts, p.length = M) (h2 : 2 ≤ M) (hn : 2 ≤ pts.length) :
    (crowdingDistance op srt pts).Sat (fun r => r.length = pts.length) := by
  have h0 : 0 < pts.length := by omega
  have hp0 : pts[0].length = M := hM _ (List.getElem_mem h0)
  unfold crowdingDistance
  rw [if_neg (by omega), get_of_lt h0]
  simp only [bind_ok]
  rw [if_neg (by omega), if_neg (by
    simp only [Bool.not_eq_true', Bool.not_eq_false, List.all_eq_true, beq_iff_eq]
    intro p hp; rw [hM p hp, hp0])]
  refine (range_sat (fun _ s => s.1.Perm (List.range pts.length) ∧ s.2.length = pts.length) _ _ ?_
    ?_).bind ?_
  · simp
  · rintro i s hi ⟨h1, h2⟩
    exact (crowdPass_sat op hsrt hM (hp0 ▸ hi) hn h1 h2).mono (fun s' h => ⟨h.1, h.2.2.1⟩)
  · rintro s ⟨_, h⟩; simpa using h

/-! ### Selection -/

theorem takeFronts_spec (n : Nat) (fs : List (List Nat)) (ret : List Nat) (hr : ret.length < n)
    (htot : n < ret.length + fs.flatten.length) :
    ∃ (pre suf : List (List Nat)), fs = pre ++ suf ∧
      ((takeFronts n fs ret = (ret ++ pre.flatten, none) ∧ (ret ++ pre.flatten).length = n) ∨
       ∃ f rest, suf = f :: rest ∧ takeFronts n fs ret = (ret ++ pre.flatten, some suf) ∧
        (ret ++ pre.flatten).length < n ∧ n < (ret ++ pre.flatten).length + f.length) := by
  induction fs generalizing ret with
  | nil => simp at htot; omega
  | cons f fs ih =>
    unfold takeFronts
    by_cases h1 : ret.length + f.length ≤ n
    · rw [if_pos h1]
      by_cases h2 : (ret ++ f).length = n
      · rw [if_pos h2]
        exact ⟨[f], fs, rfl, Or.inl ⟨by simp, by simpa using h2⟩⟩
      · rw [if_neg h2]
        obtain ⟨pre, suf, e, h⟩ := ih (ret ++ f) (by simp at h2 ⊢; omega) (by simp at htot ⊢; omega)
        refine ⟨f :: pre, suf, by simp [e], ?_⟩
        simpa using h
    · rw [if_neg h1]
      exact ⟨[], f :: fs, rfl, Or.inr ⟨f, fs, rfl, by simp, by simpa using hr, by simp; omega⟩⟩

end Verif.MO
