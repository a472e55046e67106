import Verif.Proof.Crowding
import Verif.Props.MultiObjective

/-!
# Properties C05, C06, C75: selection and sorting of multi-objective populations
-/

set_option autoImplicit false

namespace Verif.Props

open Verif Outcome Spec MO

variable {K : Type} [LinearOrder K]

/-- `crowding_distance` called on the points of front `f` gives point `a` at least as large a distance
as point `b`. -/
def CrowdGE (op : Fl.Ops K) (srt : (Nat → Nat → Bool) → List Nat → List Nat)
    (pts : List (List (Fl K))) (f : List Nat) (a b : Nat) : Prop :=
  ∃ (fits : List (List (Fl K))) (cds : List (Fl K)) (x y : Nat) (da db : Fl K),
    fits.map some = f.map (fun i => pts[i]?) ∧ crowdingDistance op srt fits = .ok cds ∧
    f[x]? = some a ∧ f[y]? = some b ∧ cds[x]? = some da ∧ cds[y]? = some db ∧ db ≤ da

/-- `a` has a better non-domination rank than `b`, or the same rank and at least the same crowding
distance. -/
def RankCrowdGE (op : Fl.Ops K) (srt : (Nat → Nat → Bool) → List Nat → List Nat)
    (pts : List (List (Fl K))) (a b : Nat) : Prop :=
  ∃ (t : Fnds) (ra rb : Nat), fnds pts = .ok t ∧ t.rank[a]? = some ra ∧ t.rank[b]? = some rb ∧
    ra ≤ rb ∧ (ra = rb → ∃ f, t.fronts[ra]? = some f ∧ CrowdGE op srt pts f a b)

/-- facts about the output of the sorting used below -/
private theorem fnds_facts {pts : List (List (Fl K))} (hn : 2 ≤ pts.length) (hs : SameLength pts) :
    ∃ t, fnds pts = .ok t ∧ t.fronts.flatten.Perm (List.range pts.length) ∧
      t.rank.length = pts.length ∧
      (∀ i k, i < pts.length → (t.rank[i]? = some k ↔ ∃ f, t.fronts[k]? = some f ∧ i ∈ f)) ∧
      t.fronts.flatten.Nodup ∧ (∀ f ∈ t.fronts, f ≠ []) ∧ IsLayering pts t.fronts := by
  obtain ⟨t, ht, hL, h1, h2, _, _⟩ := C02_fnds_layers pts hn hs
  exact ⟨t, ht, hL.partition, h1, h2, hL.partition.nodup_iff.mpr List.nodup_range, hL.nonempty, hL⟩

private theorem fits_sat {pts : List (List (Fl K))} {f : List Nat} (h : ∀ i ∈ f, i < pts.length) :
    (f.mapM (fun i => Outcome.get pts i)).Sat (fun fits => fits.map some = f.map (fun i => pts[i]?) ∧
      fits.length = f.length ∧ ∀ p ∈ fits, p ∈ pts) := by
  refine (mapM_sat (P := fun i p => pts[i]? = some p) f ?_).mono ?_
  · intro i hi
    rw [get_of_lt (h i hi), sat_ok]
    exact List.getElem?_eq_getElem (h i hi)
  · intro fits hf
    refine ⟨?_, hf.length_eq.symm, ?_⟩
    · clear h
      induction hf with
      | nil => rfl
      | cons h _ ih => simp [h, ih]
    · intro p hp
      obtain ⟨m, hm, rfl⟩ := List.getElem_of_mem hp
      have h' := List.forall₂_iff_get.mp hf
      have hm' : m < f.length := by rw [h'.1]; exact hm
      exact List.mem_of_getElem? (h'.2 m hm' hm)

private theorem cdGreater_false {cds : List (Fl K)} {a b : Nat} {x y : Fl K} (ha : cds[a]? = some x)
    (hb : cds[b]? = some y) (h : cdGreater cds b a = false) : y ≤ x := by
  rw [cdGreater, hb, ha] at h
  rw [← Bool.not_eq_true, Fl.greaterThanF_iff] at h
  exact not_lt.mp h

/-! ## C05 -/

/-- C05: for points with two or more objectives, any number `n`, any arithmetic and any sort routine
meeting its contract, the call returns `min n N` distinct indices and everyone kept is at least as
good as everyone dropped (rank, then crowding distance within the split front). -/
theorem C05_select_best (op : Fl.Ops K) (srt : (Nat → Nat → Bool) → List Nat → List Nat)
    (hsrt : ValidSort srt) (pts : List (List (Fl K))) (M : Nat) (hM : ∀ p ∈ pts, p.length = M)
    (h2 : 2 ≤ M) (n : Nat) :
    (selectBestNMo op srt pts n).Sat (fun r =>
      r.length = min n pts.length ∧ r.Nodup ∧ (∀ i ∈ r, i < pts.length) ∧
      ∀ a ∈ r, ∀ b, b < pts.length → b ∉ r → RankCrowdGE op srt pts a b) := by
  unfold selectBestNMo
  split
  · rename_i h; subst h; simp
  split
  · rename_i h; simp [h]
  split
  · rename_i h0 h1 h
    rw [sat_ok, h]
    refine ⟨by simp; omega, by simp, by simp, ?_⟩
    intro a _ b hb hnb
    simp at hnb; omega
  split
  · rename_i h
    rw [sat_ok]
    refine ⟨by simp; omega, List.nodup_range, by simp, ?_⟩
    intro a _ b hb hnb
    exact absurd (List.mem_range.mpr hb) hnb
  · rename_i g0 g1 g2 g3
    have hn : 2 ≤ pts.length := by omega
    have hs : SameLength pts := fun p hp q hq => (hM p hp).trans (hM q hq).symm
    obtain ⟨t, ht, hpart, hrl, hrank, hnd, hne, hL⟩ := fnds_facts hn hs
    rw [ht]
    simp only [bind_ok]
    have htot : t.fronts.flatten.length = pts.length := by simpa using hpart.length_eq
    have hmemlt : ∀ i, i ∈ t.fronts.flatten ↔ i < pts.length := by
      intro i; rw [hpart.mem_iff, List.mem_range]
    obtain ⟨pre, suf, hsplit, hcase⟩ := takeFronts_spec n t.fronts [] (by simp; omega)
      (by simp only [List.length_nil]; omega)
    simp only [List.nil_append] at hcase
    have hpre : ∀ a ∈ pre.flatten, ∃ k, k < pre.length ∧ t.rank[a]? = some k := by
      intro a ha
      obtain ⟨f, hf, haf⟩ := List.mem_flatten.mp ha
      obtain ⟨k, hk, rfl⟩ := List.getElem_of_mem hf
      have halt : a < pts.length := (hmemlt a).mp (by rw [hsplit]; simp; left; exact ⟨_, hf, haf⟩)
      refine ⟨k, hk, (hrank a k halt).mpr ⟨pre[k], ?_, haf⟩⟩
      rw [hsplit, List.getElem?_append_left hk, List.getElem?_eq_getElem hk]
    have hsuf : ∀ b, b < pts.length → b ∉ pre.flatten → ∃ k, pre.length ≤ k ∧ t.rank[b]? = some k ∧
        ∃ f, t.fronts[k]? = some f ∧ b ∈ f := by
      intro b hb hnb
      have hbl : b < t.rank.length := by omega
      obtain ⟨f, hf, hbf⟩ := (hrank b _ hb).mp (List.getElem?_eq_getElem hbl)
      refine ⟨t.rank[b], ?_, List.getElem?_eq_getElem hbl, f, hf, hbf⟩
      by_contra hlt
      rw [hsplit, List.getElem?_append_left (by omega)] at hf
      exact hnb (List.mem_flatten.mpr ⟨f, List.mem_of_getElem? hf, hbf⟩)
    have hflat : t.fronts.flatten = pre.flatten ++ suf.flatten := by rw [hsplit]; simp
    rw [hflat] at hnd
    rcases hcase with ⟨htk, hlen⟩ | ⟨f, rest, hsf, htk, hlt, hgt⟩
    · rw [htk]
      simp only [pure_eq, sat_ok]
      refine ⟨by omega, (List.nodup_append.mp hnd).1, ?_, ?_⟩
      · intro i hi
        exact (hmemlt i).mp (by rw [hflat]; simp only [List.mem_append]; left; exact hi)
      · intro a ha b hb hnb
        obtain ⟨k, hk, hra⟩ := hpre a ha
        obtain ⟨k', hk', hrb, _⟩ := hsuf b hb hnb
        exact ⟨t, k, k', ht, hra, hrb, by omega, fun h => by omega⟩
    · rw [htk, hsf]
      simp only
      rw [get_of_lt (by simp)]
      simp only [List.getElem_cons_zero, bind_ok]
      have hfk : t.fronts[pre.length]? = some f := by rw [hsplit, hsf]; simp
      have hflt : ∀ i ∈ f, i < pts.length := fun i hi =>
        (hmemlt i).mp (List.mem_flatten.mpr ⟨f, List.mem_of_getElem? hfk, hi⟩)
      have hfrank : ∀ i ∈ f, t.rank[i]? = some pre.length := fun i hi =>
        (hrank i _ (hflt i hi)).mpr ⟨f, hfk, hi⟩
      rw [hsf] at hnd
      have hndf : f.Nodup := by
        have := (List.nodup_append.mp hnd).2.1
        rw [List.flatten_cons] at this
        exact (List.nodup_append.mp this).1
      have hdisj : ∀ a ∈ pre.flatten, ∀ b ∈ f, a ≠ b := by
        intro a ha b hb
        exact (List.nodup_append.mp hnd).2.2 a ha b (by simp [hb])
      refine (fits_sat hflt).bind ?_
      rintro fits ⟨hfm, hfl, hfp⟩
      have hcd := crowding_isOk op hsrt (pts := fits) (M := M) (fun p hp => hM p (hfp p hp)) h2
        (by omega)
      obtain ⟨cds, hcds, hcl⟩ := hcd
      rw [hcds]
      simp only [bind_ok]
      have hswo : swoOn (cdGreater cds) (List.range f.length) = true := by
        refine swoOn_of_key (fun a => OrderDual.toDual (cds.getD a .nan)) ?_
        intro a ha b hb
        rw [List.mem_range] at ha hb
        have ha' : a < cds.length := by omega
        have hb' : b < cds.length := by omega
        rw [OrderDual.toDual_lt_toDual, getD_of_lt ha', getD_of_lt hb', cdGreater,
          List.getElem?_eq_getElem ha', List.getElem?_eq_getElem hb', Fl.greaterThanF_iff]
      refine (stdSort_sat hsrt hswo).bind ?_
      rintro idxs ⟨hip, his⟩
      have hil : idxs.length = f.length := by simpa using hip.length_eq
      have hind : idxs.Nodup := hip.nodup_iff.mpr List.nodup_range
      have hilt : ∀ p (h : p < idxs.length), idxs[p] < f.length := by
        intro p h
        have := hip.mem_iff.mp (List.getElem_mem h)
        simpa using this
      -- the kept part of the split front
      refine (range_sat (fun m r => ∃ ks, r = pre.flatten ++ ks ∧ ks.length = m ∧
        ∀ p x, ks[p]? = some x ↔ p < m ∧ ∃ k, idxs[p]? = some k ∧ f[k]? = some x) _ _ ?_ ?_).mono ?_
      · exact ⟨[], by simp, rfl, by simp⟩
      · rintro m r hm ⟨ks, rfl, hkl, hks⟩
        have hm1 : m < idxs.length := by omega
        rw [get_of_lt hm1]
        simp only [bind_ok]
        rw [get_of_lt (hilt m hm1)]
        simp only [bind_ok, pure_eq, sat_ok]
        refine ⟨ks ++ [f[idxs[m]]'(hilt m hm1)], by simp, by simp [hkl], ?_⟩
        intro p x
        by_cases hp : p < m
        · rw [List.getElem?_append_left (by omega), hks]
          simp only [hp, true_and, show p < m + 1 by omega]
        · by_cases hpm : p = m
          · subst hpm
            rw [List.getElem?_append_right (by omega)]
            simp only [hkl, Nat.sub_self, List.getElem?_cons_zero, Nat.lt_succ_self, true_and,
              List.getElem?_eq_getElem hm1, Option.some.injEq, exists_eq_left',
              List.getElem?_eq_getElem (hilt p hm1)]
          · have : (ks ++ [f[idxs[m]]'(hilt m hm1)])[p]? = none :=
              List.getElem?_eq_none (by simp; omega)
            rw [this]
            simp only [show ¬ p < m + 1 by omega, false_and, reduceCtorEq]
      · rintro r ⟨ks, rfl, hkl, hks⟩
        have hksf : ∀ x ∈ ks, x ∈ f := by
          intro x hx
          obtain ⟨p, hp, rfl⟩ := List.getElem_of_mem hx
          obtain ⟨_, k, _, hk⟩ := (hks p _).mp (List.getElem?_eq_getElem hp)
          exact List.mem_of_getElem? hk
        have hksnd : ks.Nodup := by
          rw [List.nodup_iff_injective_get]
          intro ⟨p, hp⟩ ⟨q, hq⟩ hpq
          simp only [List.get_eq_getElem] at hpq
          obtain ⟨_, k, hk1, hk2⟩ := (hks p _).mp (List.getElem?_eq_getElem hp)
          obtain ⟨_, k', hk1', hk2'⟩ := (hks q _).mp (List.getElem?_eq_getElem hq)
          obtain ⟨a1, a2⟩ := List.getElem?_eq_some_iff.mp hk2
          obtain ⟨b1, b2⟩ := List.getElem?_eq_some_iff.mp hk2'
          have hkk : k = k' := (List.Nodup.getElem_inj_iff hndf).mp (by rw [a2, b2]; exact hpq)
          subst hkk
          obtain ⟨c1, c2⟩ := List.getElem?_eq_some_iff.mp hk1
          obtain ⟨d1, d2⟩ := List.getElem?_eq_some_iff.mp hk1'
          exact Fin.ext ((List.Nodup.getElem_inj_iff hind).mp (by rw [c2, d2]))
        refine ⟨by rw [List.length_append]; omega, ?_, ?_, ?_⟩
        · rw [List.nodup_append]
          exact ⟨(List.nodup_append.mp hnd).1, hksnd, fun a ha b hb => hdisj a ha b (hksf b hb)⟩
        · intro i hi
          rcases List.mem_append.mp hi with hi | hi
          · exact (hmemlt i).mp (by rw [hflat]; exact List.mem_append_left _ hi)
          · exact hflt i (hksf i hi)
        · intro a ha b hb hnb
          rw [List.mem_append, not_or] at hnb
          obtain ⟨k', hk', hrb, fb, hfb, hbf⟩ := hsuf b hb hnb.1
          rcases List.mem_append.mp ha with ha | ha
          · obtain ⟨k, hk, hra⟩ := hpre a ha
            exact ⟨t, k, k', ht, hra, hrb, by omega, fun h => by omega⟩
          · refine ⟨t, pre.length, k', ht, hfrank a (hksf a ha), hrb, hk', ?_⟩
            rintro rfl
            rw [hfk] at hfb
            cases hfb
            refine ⟨f, hfk, ?_⟩
            obtain ⟨p, hp, rfl⟩ := List.getElem_of_mem ha
            obtain ⟨hpm, x, hx1, hx2⟩ := (hks p _).mp (List.getElem?_eq_getElem hp)
            obtain ⟨y, hy, rfl⟩ := List.getElem_of_mem hbf
            have hyi : y ∈ idxs := hip.mem_iff.mpr (by simpa using hy)
            obtain ⟨q, hq, hqy⟩ := List.getElem_of_mem hyi
            have hqm : ¬ q < n - (pre.flatten).length := by
              intro hqm
              apply hnb.2
              exact List.mem_of_getElem? ((hks q f[y]).mpr ⟨hqm, y, by
                rw [List.getElem?_eq_getElem hq, hqy], List.getElem?_eq_getElem hy⟩)
            obtain ⟨hpi, rfl⟩ := List.getElem?_eq_some_iff.mp hx1
            have hxl : idxs[p] < cds.length := by
              have := hilt p hpi; omega
            have hyl : y < cds.length := by omega
            have hs' := List.pairwise_iff_getElem.mp his p q hpi hq (by omega)
            rw [hqy] at hs'
            refine ⟨fits, cds, idxs[p], y, cds[idxs[p]], cds[y], hfm, hcds, hx2,
              List.getElem?_eq_getElem hy, List.getElem?_eq_getElem hxl,
              List.getElem?_eq_getElem hyl, ?_⟩
            exact cdGreater_false (List.getElem?_eq_getElem hxl) (List.getElem?_eq_getElem hyl) hs'

/-- a split front: six mutually non-dominated points, four are selected -/
example : selectBestNMo (Fl.exact ℚ) insSort [[.fin 0, .fin 7], [.fin 1, .fin 5], [.fin 2, .fin 3],
    [.fin 4, .fin 2], [.fin 7, .fin 1], [.fin 10, .fin 0], [.fin 11, .fin 8]] 4 =
    .ok [5, 0, 4, 3] := by decide +kernel

/-! ## C06 -/

/-- result of the loop over the fronts -/
private theorem crowdFront_sat (op : Fl.Ops K) {srt : (Nat → Nat → Bool) → List Nat → List Nat}
    {pts : List (List (Fl K))} {f : List Nat}
    {cr : List (Fl K)} (hcr : cr.length = pts.length) (hf : ∀ i ∈ f, i < pts.length)
    (hnd : f.Nodup) (hne : f ≠ [])
    (hok : f.length ≠ 1 → ∀ fits : List (List (Fl K)), fits.length = f.length →
      (∀ p ∈ fits, p ∈ pts) → (crowdingDistance op srt fits).Sat (fun r => r.length = fits.length)) :
    (crowdFront op srt pts cr f).Sat (fun cr' => cr'.length = pts.length ∧
      (∀ i, i ∉ f → cr'[i]? = cr[i]?) ∧
      (f.length ≠ 1 → ∃ fits cds, fits.map some = f.map (fun i => pts[i]?) ∧
        crowdingDistance op srt fits = .ok cds ∧ cds.length = f.length ∧
        ∀ (x a : Nat), f[x]? = some a → cr'[a]? = cds[x]?)) := by
  unfold crowdFront
  split
  · rename_i h1
    have h0 : 0 < f.length := by omega
    rw [get_of_lt h0]
    simp only [bind_ok]
    rw [set_of_lt (by rw [hcr]; exact hf _ (List.getElem_mem h0)), sat_ok]
    refine ⟨by simpa using hcr, ?_, fun h => absurd h1 h⟩
    intro i hi
    rw [List.getElem?_set_ne]
    intro h; exact hi (h ▸ List.getElem_mem h0)
  · rename_i h1
    refine (fits_sat hf).bind ?_
    rintro fits ⟨hfm, hfl, hfp⟩
    obtain ⟨cds, hcds, hcl⟩ := hok h1 fits hfl hfp
    rw [hcds]
    simp only [bind_ok]
    refine (range_sat (fun m cr' => cr'.length = pts.length ∧ (∀ i, i ∉ f → cr'[i]? = cr[i]?) ∧
      ∀ (x a : Nat), x < m → f[x]? = some a → cr'[a]? = cds[x]?) _ _ ?_ ?_).mono ?_
    · exact ⟨hcr, fun _ _ => rfl, by simp⟩
    · rintro m cr' hm ⟨h2, h3, h4⟩
      rw [get_of_lt hm]
      simp only [bind_ok]
      rw [get_of_lt (by omega)]
      simp only [bind_ok]
      rw [set_of_lt (by rw [h2]; exact hf _ (List.getElem_mem hm)), sat_ok]
      refine ⟨by simpa using h2, ?_, ?_⟩
      · intro i hi
        rw [List.getElem?_set_ne (by intro h; exact hi (h ▸ List.getElem_mem hm)), h3 i hi]
      · intro x a hx hxa
        obtain ⟨hxl, rfl⟩ := List.getElem?_eq_some_iff.mp hxa
        by_cases hxm : x = m
        · subst hxm
          rw [List.getElem?_set_self (by rw [h2]; exact hf _ (List.getElem_mem hm)),
            List.getElem?_eq_getElem (by omega)]
        · rw [List.getElem?_set_ne, h4 x _ (by omega) hxa]
          intro h
          exact hxm ((List.Nodup.getElem_inj_iff hnd).mp h).symm
    · rintro cr' ⟨h2, h3, h4⟩
      refine ⟨h2, h3, fun _ => ⟨fits, cds, hfm, hcds, by omega, ?_⟩⟩
      intro x a hxa
      exact h4 x a (List.getElem?_eq_some_iff.mp hxa).1 hxa

/-- the part of sort_population_mo after the corner cases, when no crowding distance call fails -/
private theorem sortMo_sat (op : Fl.Ops K) {srt : (Nat → Nat → Bool) → List Nat → List Nat}
    (hsrt : ValidSort srt) {pts : List (List (Fl K))} (hn : 2 ≤ pts.length) (hs : SameLength pts)
    (hok : ∀ t, fnds pts = .ok t → ∀ f ∈ t.fronts, f.length ≠ 1 →
      ∀ fits : List (List (Fl K)), fits.length = f.length →
      (∀ p ∈ fits, p ∈ pts) → (crowdingDistance op srt fits).Sat (fun r => r.length = fits.length)) :
    (sortPopulationMo op srt pts).Sat (fun r =>
      r.Perm (List.range pts.length) ∧ r.Pairwise (RankCrowdGE op srt pts)) := by
  obtain ⟨t, ht, hpart, hrl, hrank, hnd, hne, hL⟩ := fnds_facts hn hs
  have hok := hok t ht
  unfold sortPopulationMo
  rw [if_neg (by omega), if_neg (by omega), ht]
  simp only [bind_ok]
  have hmemlt : ∀ i, i ∈ t.fronts.flatten ↔ i < pts.length := by
    intro i; rw [hpart.mem_iff, List.mem_range]
  refine (foldlM_sat (f := crowdFront op srt pts) (fun done cr => cr.length = pts.length ∧
    ∀ f ∈ done, f.length ≠ 1 → ∃ fits cds, fits.map some = f.map (fun i => pts[i]?) ∧
        crowdingDistance op srt fits = .ok cds ∧ cds.length = f.length ∧
        ∀ (x a : Nat), f[x]? = some a → cr[a]? = cds[x]?) t.fronts [] _ ?_ ?_).bind ?_
  · simp
  · rintro p f q cr hfr ⟨h1, h2⟩
    rw [List.nil_append] at h2 ⊢
    have hf : f ∈ t.fronts := by rw [hfr]; simp
    have hnd' := hnd
    rw [hfr] at hnd'
    simp only [List.flatten_append, List.flatten_cons] at hnd'
    have hndf : f.Nodup := (List.nodup_append.mp (List.nodup_append.mp hnd').2.1).1
    have hflt : ∀ i ∈ f, i < pts.length := fun i hi =>
      (hmemlt i).mp (List.mem_flatten.mpr ⟨f, hf, hi⟩)
    refine (crowdFront_sat op h1 hflt hndf (hne f hf) (hok f hf)).mono ?_
    rintro cr' ⟨h3, h4, h5⟩
    refine ⟨h3, ?_⟩
    intro g hg hg1
    rcases List.mem_append.mp hg with hg | hg
    · obtain ⟨fits, cds, e1, e2, e3, e4⟩ := h2 g hg hg1
      refine ⟨fits, cds, e1, e2, e3, ?_⟩
      intro x a hxa
      rw [h4 a, e4 x a hxa]
      intro haf
      exact (List.nodup_append.mp hnd').2.2 a
        (List.mem_flatten.mpr ⟨g, hg, List.mem_of_getElem? hxa⟩) a (by simp [haf]) rfl
    · rw [List.mem_singleton] at hg
      subst hg
      exact h5 hg1
  · rintro cr ⟨h1, h2⟩
    rw [List.nil_append] at h2
    have hless : ∀ a b, a < pts.length → b < pts.length → (moLess t.rank cr a b = true ↔
        toLex (t.rank.getD a 0, OrderDual.toDual (cr.getD a .nan)) <
        toLex (t.rank.getD b 0, OrderDual.toDual (cr.getD b .nan))) := by
      intro a b ha hb
      have a1 : a < t.rank.length := by omega
      have b1 : b < t.rank.length := by omega
      have a2 : a < cr.length := by omega
      have b2 : b < cr.length := by omega
      rw [getD_of_lt a1, getD_of_lt b1, getD_of_lt a2, getD_of_lt b2, moLess,
        List.getElem?_eq_getElem a1, List.getElem?_eq_getElem b1, List.getElem?_eq_getElem a2,
        List.getElem?_eq_getElem b2, Prod.Lex.toLex_lt_toLex]
      simp only
      split
      · rename_i h; simp [h]
      · rename_i h
        simp only [decide_eq_true_eq, h, false_and, or_false]
    have hswo : swoOn (moLess t.rank cr) (List.range pts.length) = true :=
      swoOn_of_key (fun a => toLex (t.rank.getD a 0, OrderDual.toDual (cr.getD a .nan)))
        (fun a ha b hb => hless a b (List.mem_range.mp ha) (List.mem_range.mp hb))
    refine (stdSort_sat hsrt hswo).mono ?_
    rintro r ⟨hrp, hrs⟩
    refine ⟨hrp, ?_⟩
    have hrlt : ∀ a ∈ r, a < pts.length := fun a ha => by simpa using hrp.mem_iff.mp ha
    have hrnd : r.Nodup := hrp.nodup_iff.mpr List.nodup_range
    rw [List.pairwise_iff_getElem] at hrs ⊢
    intro i j hi hj hij
    have h3 := hrs i j hi hj hij
    have ha := hrlt _ (List.getElem_mem hi)
    have hb := hrlt _ (List.getElem_mem hj)
    have hab : r[i] ≠ r[j] := fun h => by
      have := (List.Nodup.getElem_inj_iff hrnd).mp h; omega
    generalize r[i] = a at h3 ha hab
    generalize r[j] = b at h3 hb hab
    rw [← Bool.not_eq_true, hless b a hb ha] at h3
    have a1 : a < t.rank.length := by omega
    have b1 : b < t.rank.length := by omega
    have a2 : a < cr.length := by omega
    have b2 : b < cr.length := by omega
    rw [getD_of_lt a1, getD_of_lt b1, getD_of_lt a2, getD_of_lt b2, Prod.Lex.toLex_lt_toLex] at h3
    simp only [not_or, not_and] at h3
    refine ⟨t, t.rank[a], t.rank[b], ht, List.getElem?_eq_getElem a1, List.getElem?_eq_getElem b1,
      by omega, ?_⟩
    intro hrr
    obtain ⟨f, hf, haf⟩ := (hrank a _ ha).mp (List.getElem?_eq_getElem a1)
    obtain ⟨f', hf', hbf⟩ := (hrank b _ hb).mp (List.getElem?_eq_getElem b1)
    rw [← hrr, hf] at hf'
    cases hf'
    refine ⟨f, hf, ?_⟩
    obtain ⟨x, hx, hxa⟩ := List.getElem_of_mem haf
    obtain ⟨y, hy, hyb⟩ := List.getElem_of_mem hbf
    have hf1 : f.length ≠ 1 := by
      intro h1
      apply hab
      have : x = y := by omega
      subst this
      rw [← hxa, ← hyb]
    obtain ⟨fits, cds, e1, e2, e3, e4⟩ := h2 f (List.mem_of_getElem? hf) hf1
    have fx : f[x]? = some a := by rw [List.getElem?_eq_getElem hx, hxa]
    have fy : f[y]? = some b := by rw [List.getElem?_eq_getElem hy, hyb]
    have c1 : cds[x]? = some cr[a] := by rw [← e4 x a fx, List.getElem?_eq_getElem a2]
    have c2 : cds[y]? = some cr[b] := by rw [← e4 y b fy, List.getElem?_eq_getElem b2]
    refine ⟨fits, cds, x, y, cr[a], cr[b], e1, e2, fx, fy, c1, c2, ?_⟩
    have := h3.2 hrr.symm
    rw [OrderDual.toDual_lt_toDual] at this
    exact not_lt.mp this

/-- C06: for points with two or more objectives the result is a permutation of the indices, ordered by
rank and then by crowding distance, for any arithmetic and any valid sort routine. -/
theorem C06_sort_population (op : Fl.Ops K) (srt : (Nat → Nat → Bool) → List Nat → List Nat)
    (hsrt : ValidSort srt) (pts : List (List (Fl K))) (M : Nat) (hM : ∀ p ∈ pts, p.length = M)
    (h2 : 2 ≤ M) :
    (sortPopulationMo op srt pts).Sat (fun r =>
      r.Perm (List.range pts.length) ∧ r.Pairwise (RankCrowdGE op srt pts)) := by
  by_cases hn : 2 ≤ pts.length
  · refine sortMo_sat op hsrt hn (fun p hp q hq => (hM p hp).trans (hM q hq).symm) ?_
    intro t ht f hf h1 fits hfl hfp
    have hs : SameLength pts := fun p hp q hq => (hM p hp).trans (hM q hq).symm
    obtain ⟨t', ht', _, _, _, _, hne, _⟩ := fnds_facts hn hs
    rw [ht] at ht'; cases ht'
    have : f.length ≠ 0 := fun h => hne f hf (List.length_eq_zero_iff.mp h)
    exact crowding_isOk op hsrt (fun p hp => hM p (hfp p hp)) h2 (by omega)
  · unfold sortPopulationMo
    split
    · rename_i h; simp [h]
    · rw [if_pos (by omega), sat_ok, show pts.length = 1 by omega]
      exact ⟨List.Perm.refl _, by simp⟩

example : sortPopulationMo (Fl.exact ℚ) insSort [[.fin 11, .fin 8], [.fin 0, .fin 7], [.fin 1, .fin 5],
    [.fin 2, .fin 3], [.fin 4, .fin 2], [.fin 7, .fin 1], [.fin 10, .fin 0]] =
    .ok [6, 1, 5, 4, 2, 3, 0] := by decide +kernel

/-! ## C75 -/

/-- C75 (partial): with one objective and pairwise different values, the result is a permutation sorted by
the objective. Missing: equal objectives, where the call throws (`C75_ties_throw`). -/
theorem C75_single_objective_partial (op : Fl.Ops K)
    (srt : (Nat → Nat → Bool) → List Nat → List Nat) (hsrt : ValidSort srt) (xs : List (Fl K))
    (hx : xs.Nodup) :
    (sortPopulationMo op srt (xs.map (fun x => [x]))).Sat (fun r =>
      r.Perm (List.range xs.length) ∧
      r.Pairwise (fun a b => ∀ u v, xs[a]? = some u → xs[b]? = some v → u ≤ v)) := by
  set pts := xs.map (fun x => [x]) with hpts
  have hlen : pts.length = xs.length := by simp [hpts]
  have hs : SameLength pts := by
    intro p hp q hq
    simp only [hpts, List.mem_map] at hp hq
    obtain ⟨_, _, rfl⟩ := hp
    obtain ⟨_, _, rfl⟩ := hq
    rfl
  by_cases hn : 2 ≤ pts.length
  · have hdom : ∀ a b u v, xs[a]? = some u → xs[b]? = some v → u < v → DomIdx pts a b := by
      intro a b u v ha hb huv
      obtain ⟨a1, rfl⟩ := List.getElem?_eq_some_iff.mp ha
      obtain ⟨b1, rfl⟩ := List.getElem?_eq_some_iff.mp hb
      refine ⟨by omega, by omega, ?_⟩
      simp only [hpts, List.getElem_map]
      refine ⟨rfl, ?_, 0, by simp, by simp, by simpa using huv⟩
      intro i h1 h2
      have : i = 0 := by simp at h1; omega
      subst this
      simpa using le_of_lt huv
    obtain ⟨t, ht, hpart, hrl, hrank, hnd, hne, hL⟩ := fnds_facts hn hs
    -- dominators have strictly smaller ranks
    have hdr : ∀ a b ra rb, DomIdx pts a b → t.rank[a]? = some ra → t.rank[b]? = some rb →
        ra < rb := by
      intro a b ra rb hab hra hrb
      have ha := (List.getElem?_eq_some_iff.mp hra).1
      have hb := (List.getElem?_eq_some_iff.mp hrb).1
      obtain ⟨f, hf, hbf⟩ := (hrank b rb (by omega)).mp hrb
      obtain ⟨hk, rfl⟩ := List.getElem?_eq_some_iff.mp hf
      cases rb with
      | zero => exact absurd hab (((hL.first hk b).mp hbf).2 a)
      | succ k =>
        obtain ⟨k', g, hk', hg, hag⟩ := ((hL.layer k hk b).mp hbf).2.1 a hab
        have := (hrank a k' (by omega)).mpr ⟨g, hg, hag⟩
        rw [hra] at this
        cases this
        omega
    have huniq : ∀ f ∈ t.fronts, f.length = 1 := by
      intro f hf
      by_contra h1
      have h0 : f.length ≠ 0 := fun h => hne f hf (List.length_eq_zero_iff.mp h)
      obtain ⟨k, hk, rfl⟩ := List.getElem_of_mem hf
      have l0 : 0 < (t.fronts[k]).length := by omega
      have l1 : 1 < (t.fronts[k]).length := by omega
      have hmem : ∀ a ∈ t.fronts[k], a < pts.length := fun a ha => by
        have := hpart.mem_iff.mp (List.mem_flatten.mpr ⟨_, hf, ha⟩)
        simpa using this
      have m0 := hmem _ (List.getElem_mem l0)
      have m1 := hmem _ (List.getElem_mem l1)
      have r0 := (hrank _ k m0).mpr ⟨_, List.getElem?_eq_getElem hk, List.getElem_mem l0⟩
      have r1 := (hrank _ k m1).mpr ⟨_, List.getElem?_eq_getElem hk, List.getElem_mem l1⟩
      have hndk : (t.fronts[k]).Nodup := (List.nodup_flatten.mp hnd).1 _ hf
      have hne01 : (t.fronts[k])[0] ≠ (t.fronts[k])[1] := fun h => by
        have := (List.Nodup.getElem_inj_iff hndk).mp h; omega
      rw [hlen] at m0 m1
      have hv : xs[(t.fronts[k])[0]] ≠ xs[(t.fronts[k])[1]] := fun h =>
        hne01 ((List.Nodup.getElem_inj_iff hx).mp h)
      rcases lt_or_gt_of_ne hv with h | h
      · exact absurd (hdr _ _ _ _ (hdom _ _ _ _ (List.getElem?_eq_getElem m0)
          (List.getElem?_eq_getElem m1) h) r0 r1) (lt_irrefl _)
      · exact absurd (hdr _ _ _ _ (hdom _ _ _ _ (List.getElem?_eq_getElem m1)
          (List.getElem?_eq_getElem m0) h) r1 r0) (lt_irrefl _)
    refine (sortMo_sat op hsrt hn hs ?_).mono ?_
    · intro t' ht' f hf h1
      rw [ht] at ht'; cases ht'
      exact absurd (huniq f hf) h1
    · rintro r ⟨h1, h2⟩
      rw [hlen] at h1
      refine ⟨h1, h2.imp ?_⟩
      rintro a b ⟨t', ra, rb, ht', hra, hrb, hle, _⟩ u v hu hv
      rw [ht] at ht'; cases ht'
      by_contra hlt
      have := hdr b a rb ra (hdom b a v u hv hu (not_le.mp hlt)) hrb hra
      omega
  · unfold sortPopulationMo
    split
    · rename_i h; rw [hlen] at h; simp [h]
    · rw [if_pos (by omega), sat_ok, show xs.length = 1 by omega]
      exact ⟨List.Perm.refl _, by simp⟩

/-- C75 is false when two individuals have the same objective: the call throws, although the
documentation says that it also works for single-objective problems. -/
theorem C75_ties_throw (op : Fl.Ops K)
    (srt : (Nat → Nat → Bool) → List Nat → List Nat) (xs : List (Fl K))
    (hx : ¬ xs.Nodup) :
    sortPopulationMo op srt (xs.map (fun x => [x])) = .throws .invalidArgument := by
  set pts := xs.map (fun x => [x]) with hpts
  have hlen : pts.length = xs.length := by simp [hpts]
  have hs : SameLength pts := by
    intro p hp q hq
    simp only [hpts, List.mem_map] at hp hq
    obtain ⟨_, _, rfl⟩ := hp
    obtain ⟨_, _, rfl⟩ := hq
    rfl
  obtain ⟨a, b, ha, hb, hab, hv⟩ : ∃ (a b : Nat) (ha : a < xs.length) (hb : b < xs.length), a ≠ b ∧
      xs[a] = xs[b] := by
    rw [List.nodup_iff_injective_get] at hx
    unfold Function.Injective at hx
    push Not at hx
    obtain ⟨⟨a, ha⟩, ⟨b, hb⟩, h1, h2⟩ := hx
    exact ⟨a, b, ha, hb, fun h => h2 (Fin.ext h), h1⟩
  have hn : 2 ≤ pts.length := by omega
  obtain ⟨t, ht, hpart, hrl, hrank, hnd, hne, hL⟩ := fnds_facts hn hs
  unfold sortPopulationMo
  rw [if_neg (by omega), if_neg (by omega), ht]
  simp only [bind_ok]
  have hfold := foldlM_satE (e := .invalidArgument) (f := crowdFront op srt pts)
    (fun done cr => cr.length = pts.length ∧ ∀ f ∈ done, f.length = 1) t.fronts []
    (List.replicate pts.length op.zero) (by simp) ?_
  · rcases hfold with h | ⟨cr, _, _, h⟩
    · rw [h]; rfl
    · exfalso
      rw [List.nil_append] at h
      have hdom : ∀ j, DomIdx pts j a ↔ DomIdx pts j b := by
        intro j
        have e : pts[a]'(by omega) = pts[b]'(by omega) := by simp [hpts, hv]
        unfold DomIdx
        constructor
        · rintro ⟨h1, h2, h3⟩; exact ⟨h1, by omega, e ▸ h3⟩
        · rintro ⟨h1, h2, h3⟩; exact ⟨h1, by omega, e ▸ h3⟩
      have hra : a < t.rank.length := by omega
      obtain ⟨f, hf, haf⟩ := (hrank a _ (by omega)).mp (List.getElem?_eq_getElem hra)
      obtain ⟨hk, rfl⟩ := List.getElem?_eq_some_iff.mp hf
      generalize t.rank[a] = k at hk haf
      have hbf : b ∈ t.fronts[k] := by
        cases k with
        | zero =>
          rw [hL.first hk] at haf ⊢
          exact ⟨by omega, fun j hj => haf.2 j ((hdom j).mpr hj)⟩
        | succ k =>
          rw [hL.layer k hk] at haf ⊢
          obtain ⟨_, h2, j, h3, h4⟩ := haf
          exact ⟨by omega, fun j hj => h2 j ((hdom j).mpr hj), j, (hdom j).mp h3, h4⟩
      have h1 := h _ (List.getElem_mem hk)
      obtain ⟨x, hx⟩ := List.length_eq_one_iff.mp h1
      rw [hx, List.mem_singleton] at haf hbf
      exact hab (haf.trans hbf.symm)
  · rintro p f q cr hfr ⟨h1, h2⟩
    rw [List.nil_append] at h2 ⊢
    have hf : f ∈ t.fronts := by rw [hfr]; simp
    have hflt : ∀ i ∈ f, i < pts.length := fun i hi => by
      have := hpart.mem_iff.mp (List.mem_flatten.mpr ⟨f, hf, hi⟩)
      simpa using this
    have h0 : f.length ≠ 0 := fun h => hne f hf (List.length_eq_zero_iff.mp h)
    by_cases hf1 : f.length = 1
    · right
      have hndf : f.Nodup := (List.nodup_flatten.mp hnd).1 _ hf
      refine (crowdFront_sat op h1 hflt hndf (hne f hf) (fun h => absurd hf1 h)).mono ?_
      rintro cr' ⟨h3, _⟩
      refine ⟨h3, ?_⟩
      intro g hg
      rcases List.mem_append.mp hg with hg | hg
      · exact h2 g hg
      · rw [List.mem_singleton] at hg; rw [hg]; exact hf1
    · left
      unfold crowdFront
      rw [if_neg hf1]
      obtain ⟨fits, e, _, hfl, hfp⟩ := fits_sat hflt
      rw [e]
      simp only [bind_ok]
      have l0 : 0 < fits.length := by omega
      have : crowdingDistance op srt fits = .throws .invalidArgument := by
        unfold crowdingDistance
        rw [if_neg (by omega), get_of_lt l0]
        simp only [bind_ok]
        rw [if_pos]
        have := hfp _ (List.getElem_mem l0)
        simp only [hpts, List.mem_map] at this
        obtain ⟨x, _, hx⟩ := this
        rw [← hx]; simp
      rw [this]
      rfl

example : sortPopulationMo (Fl.exact ℚ) insSort [[.fin 3], [.nan], [.fin 1], [.fin 2]] =
    .ok [2, 3, 0, 1] := by decide +kernel
example : ¬ [Fl.fin (1 : ℚ), .fin 2, .fin 1].Nodup := by decide +kernel

/-! ## C08 -/

section c08
variable [Field K] [IsStrictOrderedRing K]

/-- all values of objective `i` -/
def column (pts : List (List K)) (i : Nat) : List K := pts.filterMap (fun p => p[i]?)

/-- smallest or largest of `vals` -/
def IsExtreme (vals : List K) (x : K) : Prop := (∀ y ∈ vals, x ≤ y) ∨ (∀ y ∈ vals, y ≤ x)

/-- `g` is the distance between the two neighbours of `x` in `vals`, relative to the range of `vals` -/
def IsGap (vals : List K) (x g : K) : Prop :=
  ∃ lo hi mn mx,
    (lo ∈ vals ∧ lo < x ∧ ∀ y ∈ vals, y < x → y ≤ lo) ∧
    (hi ∈ vals ∧ x < hi ∧ ∀ y ∈ vals, x < y → hi ≤ y) ∧
    (mn ∈ vals ∧ ∀ y ∈ vals, mn ≤ y) ∧ (mx ∈ vals ∧ ∀ y ∈ vals, y ≤ mx) ∧
    g = (hi - lo) / (mx - mn)

private theorem column_eq {pts : List (List K)} {M i : Nat} (hM : ∀ p ∈ pts, p.length = M)
    (hi : i < M) : column pts i = pts.map (fun p => p.getD i 0) := by
  unfold column
  induction pts with
  | nil => rfl
  | cons p ps ih =>
    have hp : i < p.length := by rw [hM p (by simp)]; exact hi
    rw [List.filterMap_cons, List.getElem?_eq_getElem hp, ih (fun q hq => hM q (by simp [hq]))]
    simp [List.getD, List.getElem?_eq_getElem hp]

/-- C08: for finite points with pairwise different values in every objective, points extreme in some
objective get `+inf`, every other point the sum over the objectives of the relative gap between its
neighbours (hence non-negative, never NaN). -/
theorem C08_crowding_distance (srt : (Nat → Nat → Bool) → List Nat → List Nat)
    (hsrt : ValidSort srt) (pts : List (List K)) (M : Nat) (hM : ∀ p ∈ pts, p.length = M)
    (h2 : 2 ≤ M) (hn : 2 ≤ pts.length) (hd : ∀ i, i < M → (column pts i).Nodup) :
    (crowdingDistance (Fl.exact K) srt (pts.map (fun p => p.map Fl.fin))).Sat (fun r =>
      r.length = pts.length ∧
      ∀ (a : Nat) (p : List K), pts[a]? = some p →
        ((∃ (i : Nat) (x : K), p[i]? = some x ∧ IsExtreme (column pts i) x) ∧ r[a]? = some .pinf) ∨
        ((¬ ∃ (i : Nat) (x : K), p[i]? = some x ∧ IsExtreme (column pts i) x) ∧
          ∃ gs : List K, gs.length = M ∧
            (∀ (i : Nat) (x g : K), p[i]? = some x → gs[i]? = some g →
              IsGap (column pts i) x g ∧ 0 < g) ∧
            r[a]? = some (.fin gs.sum))) := by
  set fp := pts.map (fun p => p.map Fl.fin) with hfp
  have hlen : fp.length = pts.length := by simp [hfp]
  have hMf : ∀ p ∈ fp, p.length = M := by
    intro p hp
    obtain ⟨q, hq, rfl⟩ := List.mem_map.mp hp
    simpa using hM q hq
  set v : Nat → Nat → K := fun a i => (pts.getD a []).getD i 0 with hvdef
  have hpl : ∀ a (ha : a < pts.length), pts[a].length = M := fun a ha => hM _ (List.getElem_mem ha)
  have hv : ∀ a i (ha : a < pts.length) (hi : i < M), v a i = (pts[a])[i]'(by rw [hpl a ha]; exact hi) := by
    intro a i ha hi
    simp only [hvdef]
    rw [getD_of_lt ha, getD_of_lt (by rw [hpl a ha]; exact hi)]
  have hvl : ∀ a i, a < pts.length → i < M → vl fp a i = .fin (v a i) := by
    intro a i ha hi
    have ha' : a < fp.length := by omega
    have hi' : i < fp[a].length := by rw [hMf _ (List.getElem_mem ha')]; exact hi
    rw [hv a i ha hi]
    rw [vl, val, get_of_lt ha']
    simp only [bind_ok]
    rw [get_of_lt hi']
    simp [hfp]
  have hcol : ∀ i, i < M → ∀ y, y ∈ column pts i ↔ ∃ a, a < pts.length ∧ v a i = y := by
    intro i hi y
    rw [column_eq hM hi, List.mem_map]
    constructor
    · rintro ⟨p, hp, rfl⟩
      obtain ⟨a, ha, rfl⟩ := List.getElem_of_mem hp
      exact ⟨a, ha, by simp only [hvdef]; rw [getD_of_lt ha]⟩
    · rintro ⟨a, ha, rfl⟩
      exact ⟨pts[a], List.getElem_mem ha, by simp only [hvdef]; rw [getD_of_lt ha]⟩
  have hinj : ∀ i, i < M → ∀ a b, a < pts.length → b < pts.length → v a i = v b i → a = b := by
    intro i hi a b ha hb hab
    have h := hd i hi
    rw [column_eq hM hi] at h
    have ha' : a < (pts.map (fun p => p.getD i 0)).length := by simpa using ha
    have hb' : b < (pts.map (fun p => p.getD i 0)).length := by simpa using hb
    refine (List.Nodup.getElem_inj_iff h (hi := ha') (hj := hb')).mp ?_
    simp only [List.getElem_map]
    simp only [hvdef] at hab
    rwa [getD_of_lt ha, getD_of_lt hb] at hab
  have h0 : 0 < fp.length := by omega
  have hp0 : fp[0].length = M := hMf _ (List.getElem_mem h0)
  unfold crowdingDistance
  rw [if_neg (by omega), get_of_lt h0]
  simp only [bind_ok]
  rw [if_neg (by omega), if_neg (by
    simp only [Bool.not_eq_true', Bool.not_eq_false, List.all_eq_true, beq_iff_eq]
    intro p hp; rw [hMf p hp, hp0])]
  rw [hp0]
  refine (range_sat (fun m s => s.1.Perm (List.range fp.length) ∧ s.2.length = fp.length ∧
    ∀ a, a < pts.length →
      ((∃ i, i < m ∧ IsExtreme (column pts i) (v a i)) ∧ s.2[a]? = some .pinf) ∨
      ((¬ ∃ i, i < m ∧ IsExtreme (column pts i) (v a i)) ∧
        ∃ gs : List K, gs.length = m ∧ (∀ (i : Nat) (g : K), gs[i]? = some g →
          IsGap (column pts i) (v a i) g) ∧ s.2[a]? = some (.fin gs.sum))) _ _ ?_ ?_).bind ?_
  · refine ⟨List.Perm.refl _, by simp, ?_⟩
    intro a ha
    right
    refine ⟨by simp, [], rfl, by simp, ?_⟩
    simp [List.getElem?_replicate, hlen, ha, Fl.exact]
  · rintro m s hm ⟨hs1, hs2, hs3⟩
    refine (crowdPass_sat (Fl.exact K) hsrt hMf hm (by omega) hs1 hs2).mono ?_
    rintro s' ⟨hq1, hq2, hq3, hq4⟩
    refine ⟨hq1, hq3, ?_⟩
    intro a ha
    have hil : s'.1.length = pts.length := by
      have := hq1.length_eq
      rw [List.length_range] at this; omega
    have hind : s'.1.Nodup := hq1.nodup_iff.mpr List.nodup_range
    have hilt : ∀ p (h : p < s'.1.length), s'.1[p] < pts.length := by
      intro p h
      have := hq1.mem_iff.mp (List.getElem_mem h)
      rw [List.mem_range] at this; omega
    have hmono : ∀ p q (hp : p < s'.1.length) (hq : q < s'.1.length), p < q →
        v s'.1[p] m < v s'.1[q] m := by
      intro p q hp hq hpq
      have := List.pairwise_iff_getElem.mp hq2 p q hp hq hpq
      rw [hvl _ _ (hilt p hp) hm, hvl _ _ (hilt q hq) hm, Fl.fin_le_fin] at this
      refine lt_of_le_of_ne this ?_
      intro h
      have := (List.Nodup.getElem_inj_iff hind).mp (hinj m hm _ _ (hilt p hp) (hilt q hq) h)
      omega
    have hpos : ∀ b, b < pts.length → ∃ q, ∃ (hq : q < s'.1.length), s'.1[q] = b := by
      intro b hb
      have : b ∈ s'.1 := hq1.mem_iff.mpr (by rw [List.mem_range]; omega)
      exact List.getElem_of_mem this
    obtain ⟨p, hp, hpa⟩ := hpos a ha
    obtain ⟨x, hx1, hx2⟩ := hq4 p a (by rw [List.getElem?_eq_getElem hp, hpa])
    by_cases hpe : p = 0 ∨ p = fp.length - 1
    · rw [if_pos hpe] at hx2
      left
      refine ⟨⟨m, by omega, ?_⟩, hx2⟩
      rcases hpe with rfl | rfl
      · left
        intro y hy
        obtain ⟨b, hb, rfl⟩ := (hcol m hm y).mp hy
        obtain ⟨q, hq, rfl⟩ := hpos b hb
        rw [← hpa]
        rcases Nat.eq_zero_or_pos q with h | h
        · subst h; exact le_refl _
        · exact le_of_lt (hmono 0 q hp hq h)
      · right
        intro y hy
        obtain ⟨b, hb, rfl⟩ := (hcol m hm y).mp hy
        obtain ⟨q, hq, rfl⟩ := hpos b hb
        rw [← hpa]
        rcases Nat.lt_or_ge q (fp.length - 1) with h | h
        · exact le_of_lt (hmono q _ hq hp h)
        · have : q = fp.length - 1 := by omega
          subst this; exact le_refl _
    · rw [if_neg hpe] at hx2
      have e0 : 0 < s'.1.length := by omega
      have el : fp.length - 1 < s'.1.length := by omega
      have e1 : p + 1 < s'.1.length := by omega
      have e2 : p - 1 < s'.1.length := by omega
      have hnext : ¬ IsExtreme (column pts m) (v a m) := by
        rintro (h | h)
        · have h3 := h _ ((hcol m hm _).mpr ⟨s'.1[0], hilt 0 e0, rfl⟩)
          have h4 := hmono 0 p e0 hp (by omega)
          rw [hpa] at h4
          exact absurd h4 (not_lt.mpr h3)
        · have h3 := h _ ((hcol m hm _).mpr ⟨s'.1[p + 1], hilt _ e1, rfl⟩)
          have h4 := hmono p (p + 1) hp e1 (by omega)
          rw [hpa] at h4
          exact absurd h4 (not_lt.mpr h3)
      have hrange : v s'.1[0] m < v s'.1[fp.length - 1] m := hmono 0 _ e0 el (by omega)
      have hgap : IsGap (column pts m) (v a m)
          ((v s'.1[p + 1] m - v s'.1[p - 1] m) / (v s'.1[fp.length - 1] m - v s'.1[0] m)) := by
        refine ⟨v s'.1[p - 1] m, v s'.1[p + 1] m, v s'.1[0] m, v s'.1[fp.length - 1] m,
          ⟨(hcol m hm _).mpr ⟨_, hilt _ e2, rfl⟩, ?_, ?_⟩,
          ⟨(hcol m hm _).mpr ⟨_, hilt _ e1, rfl⟩, ?_, ?_⟩,
          ⟨(hcol m hm _).mpr ⟨_, hilt _ e0, rfl⟩, ?_⟩,
          ⟨(hcol m hm _).mpr ⟨_, hilt _ el, rfl⟩, ?_⟩, rfl⟩
        · rw [← hpa]; exact hmono _ _ e2 hp (by omega)
        · intro y hy hyx
          obtain ⟨b, hb, rfl⟩ := (hcol m hm y).mp hy
          obtain ⟨q, hq, rfl⟩ := hpos b hb
          rw [← hpa] at hyx
          by_cases hqp : q < p - 1
          · exact le_of_lt (hmono q (p - 1) hq e2 hqp)
          · by_cases hqe : q = p - 1
            · subst hqe; exact le_refl _
            · exfalso
              by_cases hqq : q = p
              · subst hqq; exact lt_irrefl _ hyx
              · exact absurd hyx (not_lt.mpr (le_of_lt (hmono p q hp hq (by omega))))
        · rw [← hpa]; exact hmono _ _ hp e1 (by omega)
        · intro y hy hyx
          obtain ⟨b, hb, rfl⟩ := (hcol m hm y).mp hy
          obtain ⟨q, hq, rfl⟩ := hpos b hb
          rw [← hpa] at hyx
          by_cases hqp : p + 1 < q
          · exact le_of_lt (hmono (p + 1) q e1 hq hqp)
          · by_cases hqe : q = p + 1
            · subst hqe; exact le_refl _
            · exfalso
              by_cases hqq : q = p
              · subst hqq; exact lt_irrefl _ hyx
              · exact absurd hyx (not_lt.mpr (le_of_lt (hmono q p hq hp (by omega))))
        · intro y hy
          obtain ⟨b, hb, rfl⟩ := (hcol m hm y).mp hy
          obtain ⟨q, hq, rfl⟩ := hpos b hb
          rcases Nat.eq_zero_or_pos q with h | h
          · subst h; exact le_refl _
          · exact le_of_lt (hmono 0 q e0 hq h)
        · intro y hy
          obtain ⟨b, hb, rfl⟩ := (hcol m hm y).mp hy
          obtain ⟨q, hq, rfl⟩ := hpos b hb
          rcases Nat.lt_or_ge q (fp.length - 1) with h | h
          · exact le_of_lt (hmono q _ hq el h)
          · have : q = fp.length - 1 := by omega
            subst this; exact le_refl _
      have hpv : posVal (Fl.exact K) fp s'.1 m p x = Fl.add x (.fin
          ((v s'.1[p + 1] m - v s'.1[p - 1] m) / (v s'.1[fp.length - 1] m - v s'.1[0] m))) := by
        unfold posVal
        rw [getD_of_lt e1, getD_of_lt e2, getD_of_lt el, getD_of_lt e0, hvl _ _ (hilt _ e1) hm,
          hvl _ _ (hilt _ e2) hm, hvl _ _ (hilt _ el) hm, hvl _ _ (hilt _ e0) hm]
        simp only [Fl.exact, Fl.sub, Fl.neg, Fl.add, ← sub_eq_add_neg, Fl.div]
        rw [if_neg (sub_ne_zero.mpr hrange.ne')]
      rcases hs3 a ha with ⟨⟨i, hi, hie⟩, hsa⟩ | ⟨hne, gs, hgl, hgs, hsa⟩
      · left
        refine ⟨⟨i, by omega, hie⟩, ?_⟩
        rw [hsa] at hx1
        cases hx1
        rw [hx2, hpv]
        rfl
      · right
        refine ⟨?_, gs ++ [(v s'.1[p + 1] m - v s'.1[p - 1] m) /
          (v s'.1[fp.length - 1] m - v s'.1[0] m)], by simp [hgl], ?_, ?_⟩
        · rintro ⟨i, hi, hie⟩
          by_cases him : i = m
          · subst him; exact hnext hie
          · exact hne ⟨i, by omega, hie⟩
        · intro i g hig
          by_cases him : i < gs.length
          · rw [List.getElem?_append_left him] at hig
            exact hgs i g hig
          · rw [List.getElem?_append_right (by omega)] at hig
            have hi0 : i - gs.length = 0 := by
              have := (List.getElem?_eq_some_iff.mp hig).1
              simpa using this
            rw [hi0] at hig
            have him : i = m := by omega
            subst him
            simp only [List.getElem?_cons_zero, Option.some.injEq] at hig
            subst hig
            exact hgap
        · rw [hsa] at hx1
          cases hx1
          rw [hx2, hpv]
          simp [Fl.add]
  · rintro s ⟨hs1, hs2, hs3⟩
    simp only [pure_eq, sat_ok]
    refine ⟨by omega, ?_⟩
    intro a p hap
    obtain ⟨ha, rfl⟩ := List.getElem?_eq_some_iff.mp hap
    have hget : ∀ (i : Nat) (x : K), (pts[a])[i]? = some x ↔ i < M ∧ v a i = x := by
      intro i x
      constructor
      · intro h
        obtain ⟨hi, rfl⟩ := List.getElem?_eq_some_iff.mp h
        have hi' : i < M := by rw [← hpl a ha]; exact hi
        exact ⟨hi', hv a i ha hi'⟩
      · rintro ⟨hi, rfl⟩
        rw [hv a i ha hi, List.getElem?_eq_getElem]
    rcases hs3 a ha with ⟨⟨i, hi, hie⟩, hsa⟩ | ⟨hne, gs, hgl, hgs, hsa⟩
    · left
      exact ⟨⟨i, v a i, (hget i _).mpr ⟨hi, rfl⟩, hie⟩, hsa⟩
    · right
      refine ⟨?_, gs, hgl, ?_, hsa⟩
      · rintro ⟨i, x, hx, hxe⟩
        obtain ⟨hi, rfl⟩ := (hget i x).mp hx
        exact hne ⟨i, hi, hxe⟩
      · intro i x g hx hg
        obtain ⟨hi, rfl⟩ := (hget i x).mp hx
        have := hgs i g hg
        refine ⟨this, ?_⟩
        obtain ⟨lo, hi', mn, mx, ⟨hlo, h1, _⟩, ⟨hhi, h2, _⟩, ⟨_, h3⟩, ⟨_, h4⟩, rfl⟩ := this
        have q1 := h3 lo hlo
        have q2 := h4 hi' hhi
        apply div_pos
        · exact sub_pos.mpr (lt_trans h1 h2)
        · exact sub_pos.mpr (lt_of_le_of_lt q1 (lt_of_lt_of_le (lt_trans h1 h2) q2))

end c08

example : crowdingDistance (Fl.exact ℚ) insSort [[.fin 0, .fin 0], [.fin (-1), .fin 1], [.fin 2, .fin (-2)]]
    = .ok [.fin 2, .pinf, .pinf] := by decide +kernel
example : (column [[(0:ℚ), 0], [-1, 1], [2, -2]] 1).Nodup := by decide +kernel

/-- Outside the hypothesis of C08 (finding): three copies of one point, a non-dominated front, get a NaN
distance (0/0), which the NaN-last comparison then treats as the largest distance. -/
theorem C08_duplicate_points_nan :
    crowdingDistance (Fl.exact ℚ) insSort [[.fin 1, .fin 2], [.fin 1, .fin 2], [.fin 1, .fin 2]]
    = .ok [.pinf, .nan, .pinf] := by decide +kernel

end Verif.Props
