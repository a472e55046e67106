import Verif.Props.Maco

/-!
# C121, C122: the archive of `maco` along a run, and when a run stops
-/

set_option autoImplicit false

namespace Verif.Props

open Verif Run Prob Pop Alg Spec

variable {K σ : Type} [Field K] [LinearOrder K]

/-- What is chosen went through the computation of the hypervolumes. -/
theorem maPick_no_nan {v : MaEnv K σ} {ker nf : Nat} (hker : 0 < ker) (hv : HvSane v.hv nf) {off : Fl K} {l T : List (List (Fl K) × List (Fl K))}
    (hd : ∀ p ∈ l, p.2.length = nf) (h : MaPick v ker nf off l T) : ∀ p ∈ T, Fl.nan ∉ p.2 := by
  obtain ⟨q, hq, rfl⟩ := h
  obtain ⟨hql, hlt⟩ := maChosen_lt hq
  rw [List.length_map] at hlt
  obtain ⟨f0, t, us, hL, hus, hle, h⟩ := hq
  have hfr : ∀ f ∈ f0 :: t, ∀ u, MaOrder v off (l.map Prod.snd) f u → ∀ j ∈ f, Fl.nan ∉ (l.getD j ([], [])).2 := by
    intro f hf u hu j hj
    obtain ⟨c, sl, h1, -⟩ := hu
    have hin : ∀ k ∈ f, k < l.length := by
      intro k hk
      have : k ∈ (f0 :: t).flatten := List.mem_flatten.mpr ⟨f, hf, hk⟩
      have := List.mem_range.mp (hL.partition.mem_iff.mp this)
      rwa [List.length_map] at this
    have hg : ∀ k ∈ f, (l.map Prod.snd).getD k [] = (l.getD k ([], [])).2 := by
      intro k hk
      rw [List.getD_eq_getElem _ _ (by rw [List.length_map]; exact hin k hk), List.getD_eq_getElem _ _ (hin k hk), List.getElem_map]
    rcases hv (f.map (fun j => (l.map Prod.snd).getD j [])) off (by intro e; rw [List.map_eq_nil_iff] at e; rw [e] at hj; simp at hj) (by
      intro g hgm
      obtain ⟨k, hk, rfl⟩ := List.mem_map.mp hgm
      rw [hg k hk, List.getD_eq_getElem _ _ (hin k hk)]
      exact hd _ (List.getElem_mem _)) with ⟨_, _, _, h⟩ | ⟨e, h⟩
    · have := h _ (List.mem_map_of_mem hj)
      rwa [hg j hj] at this
    · rw [h] at h1
      cases h1
  have husj : ∀ j ∈ us.flatten, Fl.nan ∉ (l.getD j ([], [])).2 := by
    intro j hj
    obtain ⟨u, hu, hju⟩ := List.mem_flatten.mp hj
    obtain ⟨i, hi, rfl⟩ := List.getElem_of_mem hu
    have hi' : i < ((f0 :: t).take us.length).length := by rw [hus.length_eq]; exact hi
    have ho := List.forall₂_iff_get.mp hus |>.2 i hi' hi
    simp only [List.get_eq_getElem] at ho
    exact hfr _ (List.take_subset _ _ (List.getElem_mem hi')) _ ho j (ho.perm.mem_iff.mp hju)
  intro p hp
  obtain ⟨j, hj, rfl⟩ := List.mem_map.mp hp
  rcases h with ⟨_, rfl⟩ | ⟨hge, h1, es, hes, rfl⟩
  · exact husj j (List.take_subset _ _ hj)
  · unfold maEdged at hj
    obtain ⟨i, hi, rfl⟩ := List.mem_map.mp hj
    by_cases hc : ker - 1 - i < min nf ker
    · rw [if_pos hc]
      have hlen : ker - 1 - i < es.length := by rw [hes.1]; omega
      obtain ⟨u0, rfl⟩ := List.length_eq_one_iff.mp h1
      have ho : MaOrder v off (l.map Prod.snd) f0 u0 := by
        rw [List.length_singleton, List.take_succ_cons] at hus
        cases hus with
        | cons h _ => exact h
      refine hfr f0 (by simp) u0 ho _ (hes.2 (ker - 1 - i) _ ?_).1
      rw [List.getD_eq_getElem _ _ hlen, List.getElem?_eq_getElem hlen]
    · rw [if_neg hc]
      have hik : i < (us.flatten.take ker).length := by rw [List.length_take]; have := List.mem_range.mp hi; omega
      rw [List.getD_eq_getElem _ _ hik]
      exact husj _ (List.take_subset _ _ (List.getElem_mem hik))

/-- The individuals `g` hold one that is better in some objective than all of `before`. -/
def MaBetter (nf : Nat) (before g : List (List (Fl K) × List (Fl K))) : Prop :=
  ∃ i < nf, ∃ p ∈ g, ∃ a, p.2[i]? = some a ∧ ∀ r ∈ before, ∀ b, r.2[i]? = some b → a < b

/-- The last `e` of the populations `ps` hold each an individual better in some objective than all before; the one before them does not. -/
structure MaStreak (nf : Nat) (ps : List (List (List (Fl K) × List (Fl K)))) (e : Nat) : Prop where
  lt : e < ps.length
  yes : ∀ (j : Nat) (g : List (List (Fl K) × List (Fl K))), ps.length - e ≤ j → ps[j]? = some g → MaBetter nf (ps.take j).flatten g
  no : ∀ g : List (List (Fl K) × List (Fl K)), e + 1 < ps.length → ps[ps.length - 1 - e]? = some g → ¬ MaBetter nf (ps.take (ps.length - 1 - e)).flatten g

omit [Field K] in
theorem maStreak_one (nf : Nat) (g : List (List (Fl K) × List (Fl K))) : MaStreak nf [g] 0 :=
  ⟨by simp, (fun j g' hj h => by
    have := (List.getElem?_eq_some_iff.mp h).1
    simp at this hj
    omega), fun _ h => by simp at h⟩

omit [Field K] in
theorem maStreak_snoc {nf : Nat} {ps : List (List (List (Fl K) × List (Fl K)))} {e : Nat} (h : MaStreak nf ps e) (g : List (List (Fl K) × List (Fl K))) :
    (MaBetter nf ps.flatten g → MaStreak nf (ps ++ [g]) (e + 1)) ∧ (¬ MaBetter nf ps.flatten g → MaStreak nf (ps ++ [g]) 0) := by
  have hlt := h.lt
  constructor
  · intro hb
    refine ⟨by rw [List.length_append, List.length_singleton]; omega, fun j g' hj hg' => ?_, fun g' he hg' => ?_⟩
    · rw [List.length_append, List.length_singleton] at hj
      by_cases hj' : j < ps.length
      · rw [List.getElem?_append_left hj'] at hg'
        rw [List.take_append_of_le_length (by omega)]
        exact h.yes j g' (by omega) hg'
      · have := (List.getElem?_eq_some_iff.mp hg').1
        rw [List.length_append, List.length_singleton] at this
        have e : j = ps.length := by omega
        subst e
        rw [List.getElem?_append_right (le_refl _)] at hg'
        simp at hg'
        subst hg'
        rw [List.take_append_of_le_length (le_refl _), List.take_length]
        exact hb
    · rw [List.length_append, List.length_singleton] at he hg' ⊢
      rw [show ps.length + 1 - 1 - (e + 1) = ps.length - 1 - e by omega] at hg' ⊢
      rw [List.getElem?_append_left (by omega)] at hg'
      rw [List.take_append_of_le_length (by omega)]
      exact h.no g' (by omega) hg'
  · intro hb
    refine ⟨by simp, fun j g' hj hg' => ?_, fun g' he hg' => ?_⟩
    · have := (List.getElem?_eq_some_iff.mp hg').1
      omega
    · rw [List.length_append, List.length_singleton] at he hg' ⊢
      rw [show ps.length + 1 - 1 - 0 = ps.length by omega] at hg' ⊢
      rw [List.getElem?_append_right (le_refl _)] at hg'
      simp at hg'
      subst hg'
      rw [List.take_append_of_le_length (le_refl _), List.take_length]
      exact hb

omit [Field K] in
/-- The ideal points differ just if one of the new individuals is better in some objective than all before. -/
theorem maCheck {nf : Nat} {before T g : List (List (Fl K) × List (Fl K))} {z w : List (Fl K)} (hz : MaIdeal nf (T.map Prod.snd) z)
    (hw : MaIdeal nf ((T ++ g).map Prod.snd) w) (hT : ∀ p ∈ T, p ∈ before) (hn : ∀ p ∈ T, Fl.nan ∉ p.2)
    (hbest : ∀ i < nf, ∃ p ∈ T, ∃ a, p.2[i]? = some a ∧ ∀ r ∈ before, ∀ b, r.2[i]? = some b → a ≤ b) : MaDiffers z w ↔ MaBetter nf before g := by
  have hzn : ∀ (i : Nat) (a : Fl K), z[i]? = some a → a ≠ Fl.nan := by
    intro i a ha e
    obtain ⟨⟨p, hp, h⟩, _⟩ := hz.2 i a ha
    obtain ⟨p', hp', rfl⟩ := List.mem_map.mp hp
    exact hn p' hp' (e ▸ List.mem_of_getElem? h)
  constructor
  · rintro ⟨i, a, b, ha, hb, hab⟩
    have hi : i < nf := by rw [← hz.1]; exact (List.getElem?_eq_some_iff.mp ha).1
    have hne : a ≠ b := fun e => by
      rw [(Fl.eq_iff (hzn i a ha)).mpr e] at hab
      cases hab
    obtain ⟨⟨p, hp, hpa⟩, hza⟩ := hz.2 i a ha
    obtain ⟨⟨r, hr, hrb⟩, hwb⟩ := hw.2 i b hb
    have hba : b < a := by
      refine lt_of_le_of_ne (hwb p ?_ a hpa) (Ne.symm hne)
      rw [List.map_append]
      exact List.mem_append_left _ hp
    obtain ⟨r', hr', rfl⟩ := List.mem_map.mp hr
    obtain ⟨q, hq, c, hc, hcb⟩ := hbest i hi
    have hac : a ≤ c := hza _ (List.mem_map_of_mem hq) c hc
    refine ⟨i, hi, r', ?_, b, hrb, fun s hs d hd => lt_of_lt_of_le hba (hac.trans (hcb s hs d hd))⟩
    rcases List.mem_append.mp hr' with h | h
    · exact absurd (hza _ (List.mem_map_of_mem h) b hrb) (not_le.mpr hba)
    · exact h
  · rintro ⟨i, hi, p, hp, a, ha, hb⟩
    have hiz : i < z.length := by rw [hz.1]; exact hi
    have hiw : i < w.length := by rw [hw.1]; exact hi
    refine ⟨i, z[i], w[i], List.getElem?_eq_getElem hiz, List.getElem?_eq_getElem hiw, ?_⟩
    obtain ⟨⟨r, hr, hrz⟩, _⟩ := hz.2 i z[i] (List.getElem?_eq_getElem hiz)
    obtain ⟨r', hr', rfl⟩ := List.mem_map.mp hr
    have h1 : a < z[i] := hb r' (hT r' hr') _ hrz
    have h2 : w[i] ≤ a := (hw.2 i w[i] (List.getElem?_eq_getElem hiw)).2 p.2 (List.mem_map_of_mem (List.mem_append_right _ hp)) a ha
    have hne : z[i] ≠ w[i] := ne_of_gt (lt_of_le_of_lt h2 h1)
    cases he : Fl.eq z[i] w[i]
    · rfl
    · exact absurd ((Fl.eq_iff (hzn i _ (List.getElem?_eq_getElem hiz))).mp he) hne

/-- What holds of the first generations without memory; `p0` are the individuals at the beginning. -/
structure MaChain (v : MaEnv K σ) (P : AProb K) (A : Maco K) (n : Nat) (p0 : List (List (Fl K) × List (Fl K))) (evs : List (ECall K)) (k : Nat)
    (b : MaState K) (G : List (List (List (Fl K) × List (Fl K)))) : Prop where
  len : G.length = k
  size : ∀ g ∈ G, g.length = n
  ev : b.evs = evs ++ asCalls G.flatten
  pop : b.xs.zip b.fs = G.getLastD p0
  gp : GaPop P n b.xs b.fs
  g : b.g = k
  log : b.log.length = k
  dims : ∀ p ∈ (p0 :: G).flatten, p.2.length = P.info.nf
  arch : 0 < k → MaArchives v A.ker P.info.nf (p0 :: G.dropLast) (b.arch.map (maInd P)) b.log
  nan : 0 < k → ∀ r ∈ b.arch, Fl.nan ∉ (maInd P r).2
  streak : P.info.nf ≤ A.ker → 0 < k → MaStreak P.info.nf (p0 :: G.dropLast) b.m.nEval
  went : P.info.nf ≤ A.ker → ∀ j < k, ∃ e, MaStreak P.info.nf ((p0 :: G).take (j + 1)) e ∧ (A.evalstop = 0 ∨ e < A.evalstop)

theorem maFresh_nomem {A : Maco K} (hmem : A.memory = false) (m : MaMem K) (gen : Nat) : maFresh A m gen = decide (gen = 1) := by
  unfold maFresh
  rw [hmem]
  simp

/-- the first part of a generation, without memory -/
theorem maHead_streak {v : MaEnv K σ} {P : AProb K} {A : Maco K} {n : Nat} (hker : 0 < A.ker) (hv : HvSane v.hv P.info.nf) (hmem : A.memory = false)
    (hgens : A.gens + 1 < 2 ^ 32) {p0 : List (List (Fl K) × List (Fl K))} {evs : List (ECall K)} {k : Nat} (hk : k < A.gens) {b : MaState K} {G : List (List (List (Fl K) × List (Fl K)))}
    (hc : MaChain v P A n p0 evs k b G) {u : MaTop K} {z : List (Fl K)} {check : Bool} {m2 : MaMem K} (h : MaHead v P A b u z check m2) (hnk : P.info.nf ≤ A.ker) :
    MaStreak P.info.nf (p0 :: G) m2.nEval := by
  obtain ⟨htop, hid, hm2⟩ := h
  have hxs : maXs A b.m b.xs = b.xs := by unfold maXs; rw [hmem]; rfl
  have hfs : maFs A b.m b.fs = b.fs := by unfold maFs; rw [hmem]; rfl
  have hst : maStart A b.m b.arch = b.arch := by unfold maStart; rw [hmem]; simp
  have hm1 : maM1 A (b.g + 1) b.m u.arch = b.m := by unfold maM1 maKeep; rw [hmem]; simp
  rw [hxs, hfs, hst] at htop
  rw [hm1] at hm2
  have hn : m2.nEval = if check then incU b.m.nEval else 0 := by rw [hm2]; rfl
  obtain ⟨hz, w, hw, hcheck⟩ := hid
  cases htop with
  | fresh hf arch' fit hk hl hm =>
    rw [maFresh_nomem hmem, hc.g] at hf
    have hk0 : k = 0 := by simpa using hf
    have hG : G = [] := List.length_eq_zero_iff.mp (by rw [hc.len, hk0])
    subst hG
    rw [if_pos (by rw [maFresh_nomem hmem, hc.g, hk0]; rfl)] at hw
    subst hw
    have hno : check = false := by
      rw [← Bool.not_eq_true]
      intro h
      obtain ⟨i, a, b', ha, hb, hab⟩ := hcheck.mp h
      rw [ha] at hb
      cases hb
      obtain ⟨⟨r, hr, hra⟩, _⟩ := hz.2 i a ha
      have hne : a ≠ Fl.nan := fun e => (hm r hr).2 (e ▸ List.mem_of_getElem? hra)
      rw [(Fl.eq_iff hne).mpr rfl] at hab
      cases hab
    rw [hn, hno]
    exact maStreak_one _ _
  | later hf =>
    rw [maFresh_nomem hmem, hc.g] at hf
    have hk0 : 0 < k := by
      have := of_decide_eq_false hf
      omega
    have hGne : G ≠ [] := fun e => by
      have := hc.len
      rw [e] at this
      simp at this
      omega
    obtain ⟨G', g, rfl⟩ : ∃ G' g, G = G' ++ [g] := by
      rcases G.eq_nil_or_concat with h | ⟨G', g, h⟩
      · exact absurd h hGne
      · exact ⟨G', g, by rw [h, List.concat_eq_append]⟩
    have hpop : b.xs.zip b.fs = g := by rw [hc.pop]; simp
    have harch := hc.arch hk0
    have hstr := hc.streak hnk hk0
    rw [List.dropLast_concat] at harch hstr
    rw [if_neg (by rw [maFresh_nomem hmem, hc.g, hf]; simp)] at hw
    dsimp only at hz hw
    rw [hpop] at hw
    have hz' : MaIdeal P.info.nf ((b.arch.map (maInd P)).map Prod.snd) z := by rw [List.map_map]; exact hz
    have hd : ∀ p ∈ (p0 :: G').flatten, p.2.length = P.info.nf := by
      intro p hp
      refine hc.dims p ?_
      rw [show p0 :: (G' ++ [g]) = (p0 :: G') ++ [g] from rfl, List.flatten_append]
      exact List.mem_append_left _ hp
    obtain ⟨b1, b2, b3⟩ := C121_best hker harch hd
    have hchk := maCheck hz' hw b2 (fun p hp => by obtain ⟨r, hr, rfl⟩ := List.mem_map.mp hp; exact hc.nan hk0 r hr) (fun i hi => b3 i (by omega))
    obtain ⟨s1, s2⟩ := maStreak_snoc hstr g
    rw [show p0 :: (G' ++ [g]) = (p0 :: G') ++ [g] from rfl, hn]
    by_cases hb : MaBetter P.info.nf (p0 :: G').flatten g
    · rw [hcheck.mpr (hchk.mpr hb), if_pos rfl, incU_eq]
      · exact s1 hb
      · have := hstr.lt
        have := hc.len
        simp at *
        omega
    · have : check = false := by
        rw [← Bool.not_eq_true]
        exact fun h => hb (hchk.mp (hcheck.mp h))
      rw [this]
      exact s2 hb

theorem maSteps_chain {v : MaEnv K σ} {P : AProb K} {A : Maco K} {n : Nat} (hker : 0 < A.ker) (hv : HvSane v.hv P.info.nf) (hmem : A.memory = false)
    (hgens : A.gens + 1 < 2 ^ 32) {a : MaState K} (ha : a.g = 0) (hlog : a.log = []) (hpop : GaPop P n a.xs a.fs) :
    ∀ k ≤ A.gens, ∀ b : MaState K, Steps (MaFull v P A n) k a b → ∃ G, MaChain v P A n (a.xs.zip a.fs) a.evs k b G := by
  intro k
  induction k with
  | zero =>
    intro _ b h
    cases h
    refine ⟨[], rfl, by simp, by simp [asCalls], rfl, hpop, ha, by rw [hlog]; rfl, ?_, fun h => absurd h (by omega), fun h => absurd h (by omega),
      fun _ h => absurd h (by omega), fun _ j h => absurd h (by omega)⟩
    intro p hp
    simp only [List.flatten_cons, List.flatten_nil, List.append_nil] at hp
    exact hpop.df _ (List.of_mem_zip hp).2
  | succ k ih =>
    intro hk c h
    cases h with
    | snoc h hF =>
      rename_i b
      obtain ⟨G, hc⟩ := ih (by omega) b h
      obtain ⟨-, hpb, hal, -, u, z, check, m2, sig, hw⟩ := hF
      have hxs : maXs A b.m b.xs = b.xs := by unfold maXs; rw [hmem]; rfl
      have hfs : maFs A b.m b.fs = b.fs := by unfold maFs; rw [hmem]; rfl
      have hst : maStart A b.m b.arch = b.arch := by unfold maStart; rw [hmem]; simp
      rw [hst] at hal
      have hstr := fun hnk => maHead_streak hker hv hmem hgens (by omega) hc hw.head hnk
      have hne : c.m.nEval = m2.nEval := by
        obtain ⟨q, hq⟩ := maPhero_mem v A (b.g + 1) (maM3 A (b.g + 1) m2 c.arch) b.cum
        rw [hw.mem, hq]
        unfold maM4 maM3 maKeep
        rw [hmem]
        simp
      have hap : MaArchives v A.ker P.info.nf ((a.xs.zip a.fs) :: G) (c.arch.map (maInd P)) c.log ∧ ∀ r ∈ c.arch, Fl.nan ∉ (maInd P r).2 := by
        have htop := hw.head.top
        have hup := hw.arch
        have hid := hw.head.ideals.1
        rw [hxs, hfs, hst] at htop
        rw [hw.log]
        unfold MaUpdated at hup
        cases htop with
        | fresh hf arch' fit hk hl hm =>
          rw [if_pos hf] at hup
          dsimp only at hup hid
          rw [maFresh_nomem hmem, hc.g] at hf
          have hk0 : k = 0 := by simpa using hf
          have hG : G = [] := List.length_eq_zero_iff.mp (by rw [hc.len, hk0])
          subst hG
          have hpk := maPick_of hc.gp hk
          rw [show b.xs.zip b.fs = a.xs.zip a.fs from hc.pop, ← hup] at hpk
          have hl0 : b.log = [] := List.length_eq_zero_iff.mp (by rw [hc.log, hk0])
          have hfs0 : (a.xs.zip a.fs).map Prod.snd = b.fs := by
            rw [← show b.xs.zip b.fs = a.xs.zip a.fs from hc.pop]
            exact List.map_snd_zip (by rw [hc.gp.xl, hc.gp.fl])
          refine ⟨?_, ?_⟩
          · rw [hl0]
            exact .first _ _ z fit hpk ⟨hl, fun f hf => by rw [hfs0]; exact (hm f hf).1⟩ hid
          · have := maPick_no_nan hker hv (fun p hp => hc.dims p (by simpa using hp)) hpk
            exact fun r hr => this _ (List.mem_map_of_mem hr)
        | later hf =>
          rw [if_neg (by rw [hf]; simp)] at hup
          dsimp only at hup hid
          rw [maFresh_nomem hmem, hc.g] at hf
          have hk0 : 0 < k := by
            have := of_decide_eq_false hf
            omega
          have hGne : G ≠ [] := fun e => by
            have := hc.len
            rw [e] at this
            simp at this
            omega
          obtain ⟨G', g, rfl⟩ : ∃ G' g, G = G' ++ [g] := by
            rcases G.eq_nil_or_concat with h | ⟨G', g, h⟩
            · exact absurd h hGne
            · exact ⟨G', g, by rw [h, List.concat_eq_append]⟩
          have hpop' : b.xs.zip b.fs = g := by rw [hc.pop]; simp
          have harch := hc.arch hk0
          rw [List.dropLast_concat] at harch
          have hpk := maPick_of (maCand_pop hal hc.gp) hup
          rw [ma_zip_unzip, hpop'] at hpk
          refine ⟨?_, ?_⟩
          · rw [show (a.xs.zip a.fs) :: (G' ++ [g]) = ((a.xs.zip a.fs) :: G') ++ [g] from rfl]
            refine .next _ _ _ harch g _ z hpk ?_
            rw [List.map_map]
            exact hid
          · have := maPick_no_nan hker hv (fun p hp => ?_) hpk
            · exact fun r hr => this _ (List.mem_map_of_mem hr)
            · rw [← hpop'] at hp
              exact (maCand_pop hal hc.gp).df _ (List.mem_map_of_mem hp)
      refine ⟨G ++ [c.xs.zip c.fs], by simp [hc.len], ?_, ?_, by simp, hpb, by rw [hw.g, hc.g], by rw [hw.log, List.length_append, hc.log]; rfl, ?_, ?_, fun _ => hap.2, ?_, ?_⟩
      · intro g hg
        rcases List.mem_append.mp hg with h | h
        · exact hc.size g h
        · rw [List.mem_singleton.mp h, List.length_zip, hpb.xl, hpb.fl, Nat.min_self]
      · rw [hw.ev, hc.ev, List.append_assoc]
        congr 1
        simp [asCalls, List.flatten_append]
      · intro p hp
        rw [show (a.xs.zip a.fs) :: (G ++ [c.xs.zip c.fs]) = ((a.xs.zip a.fs) :: G) ++ [c.xs.zip c.fs] from rfl, List.flatten_append] at hp
        rcases List.mem_append.mp hp with h | h
        · exact hc.dims p h
        · simp only [List.flatten_cons, List.flatten_nil, List.append_nil] at h
          exact hpb.df _ (List.of_mem_zip h).2
      · intro _
        rw [List.dropLast_concat]
        exact hap.1
      · intro hnk _
        rw [List.dropLast_concat, hne]
        exact hstr hnk
      · intro hnk j hj
        by_cases hjk : j < k
        · obtain ⟨e, h1, h2⟩ := hc.went hnk j hjk
          refine ⟨e, ?_, h2⟩
          rw [show (a.xs.zip a.fs) :: (G ++ [c.xs.zip c.fs]) = ((a.xs.zip a.fs) :: G) ++ [c.xs.zip c.fs] from rfl,
            List.take_append_of_le_length (by rw [List.length_cons, hc.len]; omega)]
          exact h1
        · have : j = k := by omega
          subst this
          refine ⟨m2.nEval, ?_, ?_⟩
          · rw [show (a.xs.zip a.fs) :: (G ++ [c.xs.zip c.fs]) = ((a.xs.zip a.fs) :: G) ++ [c.xs.zip c.fs] from rfl,
              List.take_append_of_le_length (by rw [List.length_cons, hc.len]), List.take_of_length_le (by rw [List.length_cons, hc.len])]
            exact hstr hnk
          · have := hw.go
            unfold MaStop at this
            by_cases h0 : A.evalstop = 0
            · exact Or.inl h0
            · right
              by_contra hlt
              exact this ⟨h0, by omega⟩

/-- C121. The ideal point logged in a generation, from the second one on, has in each objective the best value found before the population of that
generation. Its values never get worse along the log. -/
theorem C121_log {v : MaEnv K σ} {ker nf : Nat} (hker : nf ≤ ker) (hker0 : 0 < ker) {ps : List (List (List (Fl K) × List (Fl K)))}
    {T : List (List (Fl K) × List (Fl K))} {log : List (List (Fl K))} (h : MaArchives v ker nf ps T log) (hd : ∀ p ∈ ps.flatten, p.2.length = nf) :
    log.length = ps.length ∧ (∀ (j : Nat) (z : List (Fl K)), 1 ≤ j → log[j]? = some z → MaIdeal nf ((ps.take j).flatten.map Prod.snd) z) ∧
      ∀ (j k : Nat) (z w : List (Fl K)), j < k → log[j]? = some z → log[k]? = some w → ∀ (i : Nat) (a b : Fl K), z[i]? = some a → w[i]? = some b → b ≤ a := by
  have key : log.length = ps.length ∧ (∀ (j : Nat) (z : List (Fl K)), 1 ≤ j → log[j]? = some z → MaIdeal nf ((ps.take j).flatten.map Prod.snd) z) ∧
      ∀ z, log[0]? = some z → ∃ fit, (∀ f ∈ fit, f ∈ (ps.take 1).flatten.map Prod.snd) ∧ MaIdeal nf fit z := by
    induction h with
    | first g T z fit hp hf hz =>
      refine ⟨rfl, fun j z' hj h => ?_, fun z' h => ?_⟩
      · have := (List.getElem?_eq_some_iff.mp h).1
        simp at this
        omega
      · simp at h
        subst h
        exact ⟨fit, by simpa using hf.2, hz⟩
    | next ps T log h g T' z hp hz ih =>
      have hd' : ∀ p ∈ ps.flatten, p.2.length = nf := fun p hp => hd p (by rw [List.flatten_append]; exact List.mem_append_left _ hp)
      obtain ⟨i1, i2, i3⟩ := ih hd'
      have hpos : 0 < ps.length := by cases h <;> simp
      refine ⟨by simp [i1], fun j z' hj h' => ?_, fun z' h' => ?_⟩
      · by_cases hlt : j < log.length
        · rw [List.getElem?_append_left hlt] at h'
          rw [List.take_append_of_le_length (by omega)]
          exact i2 j z' hj h'
        · have := (List.getElem?_eq_some_iff.mp h').1
          rw [List.length_append, List.length_singleton] at this
          have e : j = log.length := by omega
          subst e
          rw [List.getElem?_append_right (le_refl _)] at h'
          simp at h'
          subst h'
          rw [i1, List.take_append_of_le_length (le_refl _), List.take_length]
          obtain ⟨_, b2, b3⟩ := C121_best hker0 h hd'
          refine ⟨hz.1, fun i m hm => ?_⟩
          obtain ⟨⟨p, hp, hpm⟩, hle⟩ := hz.2 i m hm
          obtain ⟨p', hp', rfl⟩ := List.mem_map.mp hp
          refine ⟨⟨_, List.mem_map_of_mem (b2 p' hp'), hpm⟩, fun q hq x hx => ?_⟩
          obtain ⟨q', hq', rfl⟩ := List.mem_map.mp hq
          have hi : i < nf := by rw [← hz.1]; exact (List.getElem?_eq_some_iff.mp hm).1
          obtain ⟨r, hr, a, hra, hrb⟩ := b3 i (by omega)
          exact (hle _ (List.mem_map_of_mem hr) a hra).trans (hrb q' hq' x hx)
      · rw [List.getElem?_append_left (by omega)] at h'
        rw [List.take_append_of_le_length (by omega)]
        exact i3 z' h'
  obtain ⟨k1, k2, k3⟩ := key
  refine ⟨k1, k2, fun j k z w hjk hz hw i a b ha hb => ?_⟩
  obtain ⟨_, hwb⟩ := (k2 k w (by omega) hw).2 i b hb
  have hsub : ∀ m ≤ k, ∀ f ∈ (ps.take m).flatten.map Prod.snd, f ∈ (ps.take k).flatten.map Prod.snd := by
    intro m hm f hf
    obtain ⟨p, hp, rfl⟩ := List.mem_map.mp hf
    obtain ⟨g, hg, hpg⟩ := List.mem_flatten.mp hp
    exact List.mem_map_of_mem (List.mem_flatten.mpr ⟨g, (List.take_subset_take_left _ hm) hg, hpg⟩)
  by_cases h0 : j = 0
  · subst h0
    obtain ⟨fit, hf, hz'⟩ := k3 z hz
    obtain ⟨⟨p, hp, hpa⟩, _⟩ := hz'.2 i a ha
    exact hwb p (hsub 1 (by omega) p (hf p hp)) a hpa
  · obtain ⟨⟨p, hp, hpa⟩, _⟩ := (k2 j z (by omega) hz).2 i a ha
    exact hwb p (hsub j (by omega) p hp) a hpa

section
variable [IsStrictOrderedRing K]

/-- C121. A run without memory: the evaluations come in generations; the archive is first chosen among the individuals and then, generation by
generation, among those of the archive and of the population. If the run is not stopped, the first `ker` individuals at the end are those of the last
archive, which holds nothing of the last generation; if it is stopped, the individuals are those of the last generation and the archive is lost. -/
theorem C121_run_partial (v : MaEnv K σ) (rep : K → Prop) (hg : v.g.Lawful rep) (hsrt : ValidSort v.srt) (hrd : RoundOk v.rd) (P : AProb K)
    (hv : HvSane v.hv P.info.nf) (hP : SaneBounds P.lb P.ub P.nix) (hnx : P.info.nx = P.lb.length) (hst : P.info.stochastic = false) (hnobj : 1 < P.info.nobj)
    (hnc : P.info.nc = 0) (A : Maco K) (hker : 2 ≤ A.ker) (hmem : A.memory = false)
    (hgens : A.gens + 1 < 2 ^ 32) (hgens0 : A.gens ≠ 0) (bfe : Option (Batch K)) (hok : ∀ b, bfe = some b → BatchOk P b)
    (s : St K σ) (hi : Inv P.info s.pop) (hk : A.ker ≤ s.pop.id.length) (m : MaMem K) (fuel : Nat) (hfuel : A.gens < fuel) :
    wp (maEvolve v P A bfe fuel m) (fun r s' => ∃ (G : List (List (List (Fl K) × List (Fl K)))) (T : List (List (Fl K) × List (Fl K))),
        (∀ g ∈ G, g.length = s.pop.id.length) ∧ s'.evs = s.evs ++ asCalls G.flatten ∧ r.2.length = G.length ∧ G.length ≤ A.gens ∧
        (∀ p ∈ (individuals s.pop :: G).flatten, p.2.length = P.info.nf) ∧
        (G ≠ [] → MaArchives v A.ker P.info.nf (individuals s.pop :: G.dropLast) T r.2) ∧
        (G.length = A.gens → individuals s'.pop = T ++ (G.getLastD []).drop A.ker) ∧
        (G.length < A.gens → individuals s'.pop = G.getLastD (individuals s.pop)) ∧
        (P.info.nf ≤ A.ker → (∀ j < G.length, ∃ e, MaStreak P.info.nf ((individuals s.pop :: G).take (j + 1)) e ∧ (A.evalstop = 0 ∨ e < A.evalstop)) ∧
          (G.length < A.gens → ∃ e, MaStreak P.info.nf (individuals s.pop :: G) e ∧ A.evalstop ≠ 0 ∧ A.evalstop ≤ e)))
      (MaFailed v P (fun _ => True) bfe s) s := by
  refine (ma_run (C := fun _ => True) hg hsrt hrd hv hP hnx hst hnobj hnc hker (fun _ _ _ _ _ => trivial) hgens hgens0 hok hi (fun _ _ => trivial) hk
    (fun h => by rw [hmem] at h; cases h) hfuel).mono ?_ (fun _ _ h => h)
  rintro r s' ⟨-, b, rfl, hcase⟩
  have hpop0 : GaPop P s.pop.id.length s.pop.x s.pop.f := gaPop_of hi rfl
  rcases hcase with ⟨s1, hmid, hend⟩ | ⟨k, hk1, hk2, b1, u, z, check, m2, hmid, hhead, hstop, rfl⟩
  · obtain ⟨G, hc⟩ := maSteps_chain (by omega) hv hmem hgens (a := maSt (maInit P A m s.pop) 0 s) rfl rfl hpop0 _ (le_refl _) _ hmid.run
    have hGne : G ≠ [] := fun e => by
      have := hc.len
      rw [e] at this
      simp at this
      omega
    refine ⟨G, b.arch.map (maInd P), hc.size, by rw [hend.evs]; exact hc.ev, hc.log.trans hc.len.symm, by rw [hc.len], hc.dims, fun _ => hc.arch (by omega), fun _ => ?_,
      fun h => absurd hc.len (by omega), fun hnk => ⟨fun j hj => hc.went hnk j (by rw [← hc.len]; exact hj), fun h => absurd hc.len (by omega)⟩⟩
    have hlast : individuals s1.pop = G.getLastD [] := by
      rw [show individuals s1.pop = _ from hc.pop]
      rcases G.eq_nil_or_concat with rfl | ⟨G', g, rfl⟩
      · exact absurd rfl hGne
      · simp
    rw [← hlast]
    unfold individuals
    rw [hend.x, hend.f, List.zip_append (by simp), ← show (s1.pop.x.zip s1.pop.f).drop A.ker = (s1.pop.x.drop A.ker).zip (s1.pop.f.drop A.ker) from List.drop_zipWith]
    congr 1
    apply List.ext_getElem
    · simp
    · intro i h1 h2
      simp
  · obtain ⟨G, hc⟩ := maSteps_chain (by omega) hv hmem hgens (a := maSt (maInit P A m s.pop) 0 s) rfl rfl hpop0 _ (by omega) _ hmid.run
    refine ⟨G, b1.arch.map (maInd P), hc.size, hc.ev, hc.log.trans hc.len.symm, by rw [hc.len]; omega, hc.dims, fun h => hc.arch ?_, fun h => absurd hc.len (by omega), fun _ => hc.pop,
      fun hnk => ⟨fun j hj => hc.went hnk j (by rw [← hc.len]; exact hj), fun _ => ⟨m2.nEval, maHead_streak (by omega) hv hmem hgens (by omega) hc hhead hnk, hstop⟩⟩⟩
    by_contra h0
    exact h (List.length_eq_zero_iff.mp (by rw [hc.len]; omega))

/-- C121. At the end of a run without memory that was not stopped, for each objective one of the first `ker` individuals has a value at least as good
as all individuals before the run and all points evaluated in it before the last generation, if `ker` is at least the number of objectives. -/
theorem C121_best_partial (v : MaEnv K σ) (rep : K → Prop) (hg : v.g.Lawful rep) (hsrt : ValidSort v.srt) (hrd : RoundOk v.rd) (P : AProb K)
    (hv : HvSane v.hv P.info.nf) (hP : SaneBounds P.lb P.ub P.nix) (hnx : P.info.nx = P.lb.length) (hst : P.info.stochastic = false) (hnobj : 1 < P.info.nobj)
    (hnc : P.info.nc = 0) (A : Maco K) (hker : 2 ≤ A.ker) (hnk : P.info.nf ≤ A.ker) (hmem : A.memory = false)
    (hgens : A.gens + 1 < 2 ^ 32) (hgens0 : A.gens ≠ 0) (bfe : Option (Batch K)) (hok : ∀ b, bfe = some b → BatchOk P b)
    (s : St K σ) (hi : Inv P.info s.pop) (hk : A.ker ≤ s.pop.id.length) (m : MaMem K) (fuel : Nat) (hfuel : A.gens < fuel) :
    wp (maEvolve v P A bfe fuel m) (fun _ s' => ∃ G : List (List (List (Fl K) × List (Fl K))),
        (∀ g ∈ G, g.length = s.pop.id.length) ∧ s'.evs = s.evs ++ asCalls G.flatten ∧
        (G.length = A.gens → ∀ i < P.info.nf, ∃ p ∈ (individuals s'.pop).take A.ker, ∃ a, p.2[i]? = some a ∧
          ∀ r ∈ individuals s.pop ++ G.dropLast.flatten, ∀ b, r.2[i]? = some b → a ≤ b))
      (MaFailed v P (fun _ => True) bfe s) s := by
  refine (C121_run_partial v rep hg hsrt hrd P hv hP hnx hst hnobj hnc A hker hmem hgens hgens0 bfe hok s hi hk m fuel hfuel).mono ?_ (fun _ _ h => h)
  rintro r s' ⟨G, T, h1, h2, -, -, hd, h3, h4, -⟩
  refine ⟨G, h1, h2, fun hl i hi' => ?_⟩
  have hGne : G ≠ [] := fun e => by rw [e] at hl; simp at hl; omega
  have hd' : ∀ p ∈ (individuals s.pop :: G.dropLast).flatten, p.2.length = P.info.nf := by
    intro p hp
    refine hd p ?_
    rw [List.flatten_cons] at hp ⊢
    rcases List.mem_append.mp hp with h | h
    · exact List.mem_append_left _ h
    · obtain ⟨g, hg, hpg⟩ := List.mem_flatten.mp h
      exact List.mem_append_right _ (List.mem_flatten.mpr ⟨g, List.dropLast_subset _ hg, hpg⟩)
  obtain ⟨b1, _, b3⟩ := C121_best (by omega) (h3 hGne) hd'
  obtain ⟨p, hp, a, ha, hb⟩ := b3 i (by omega)
  refine ⟨p, ?_, a, ha, fun r hr b hrb => hb r (by rw [List.flatten_cons]; exact hr) b hrb⟩
  rw [h4 hl, List.take_append_of_le_length (by omega), List.take_of_length_le (by omega)]
  exact hp

/-- C122. When a run without memory stops early: just when each of the last `evalstop` generations found a point better in some objective than all
points before it. The documentation says the contrary, that the generations without improvement are counted. -/
theorem C122_stop_partial (v : MaEnv K σ) (rep : K → Prop) (hg : v.g.Lawful rep) (hsrt : ValidSort v.srt) (hrd : RoundOk v.rd) (P : AProb K)
    (hv : HvSane v.hv P.info.nf) (hP : SaneBounds P.lb P.ub P.nix) (hnx : P.info.nx = P.lb.length) (hst : P.info.stochastic = false) (hnobj : 1 < P.info.nobj)
    (hnc : P.info.nc = 0) (A : Maco K) (hker : 2 ≤ A.ker) (hnk : P.info.nf ≤ A.ker) (hmem : A.memory = false)
    (hgens : A.gens + 1 < 2 ^ 32) (hgens0 : A.gens ≠ 0) (bfe : Option (Batch K)) (hok : ∀ b, bfe = some b → BatchOk P b)
    (s : St K σ) (hi : Inv P.info s.pop) (hk : A.ker ≤ s.pop.id.length) (m : MaMem K) (fuel : Nat) (hfuel : A.gens < fuel) :
    wp (maEvolve v P A bfe fuel m) (fun _ s' => ∃ G : List (List (List (Fl K) × List (Fl K))),
        (∀ g ∈ G, g.length = s.pop.id.length) ∧ s'.evs = s.evs ++ asCalls G.flatten ∧ G.length ≤ A.gens ∧
        /- stopped: the last `evalstop` generations were improvements -/
        (G.length < A.gens → A.evalstop ≠ 0 ∧ A.evalstop ≤ G.length ∧
          ∀ (j : Nat) (g : List (List (Fl K) × List (Fl K))), G.length - A.evalstop ≤ j → G[j]? = some g → MaBetter P.info.nf (individuals s.pop ++ (G.take j).flatten) g) ∧
        /- not stopped before: among `evalstop` generations in a row before the last one, one was not -/
        (A.evalstop ≠ 0 → ∀ j, j + A.evalstop < G.length → ∃ (i : Nat) (g : List (List (Fl K) × List (Fl K))), j ≤ i ∧ i < j + A.evalstop ∧ G[i]? = some g ∧
          ¬ MaBetter P.info.nf (individuals s.pop ++ (G.take i).flatten) g))
      (MaFailed v P (fun _ => True) bfe s) s := by
  refine (C121_run_partial v rep hg hsrt hrd P hv hP hnx hst hnobj hnc A hker hmem hgens hgens0 bfe hok s hi hk m fuel hfuel).mono ?_ (fun _ _ h => h)
  rintro r s' ⟨G, T, h1, h2, -, h3, -, -, -, -, h4⟩
  obtain ⟨h4, h5⟩ := h4 hnk
  refine ⟨G, h1, h2, h3, fun hl => ?_, fun h0 j hj => ?_⟩
  · obtain ⟨e, he, he0, hle⟩ := h5 hl
    have hlt := he.lt
    rw [List.length_cons] at hlt
    refine ⟨he0, by omega, fun j g hj hg' => ?_⟩
    have := he.yes (j + 1) g (by rw [List.length_cons]; omega) (by simpa using hg')
    rwa [List.take_succ_cons, List.flatten_cons] at this
  · obtain ⟨e, he, he0⟩ := h4 _ hj
    have he1 : e < A.evalstop := he0.resolve_left h0
    have hlen : ((individuals s.pop :: G).take (j + A.evalstop + 1)).length = j + A.evalstop + 1 := by
      rw [List.length_take, List.length_cons]
      omega
    have hi' : j + A.evalstop - e - 1 < G.length := by omega
    refine ⟨j + A.evalstop - e - 1, G[j + A.evalstop - e - 1], by omega, by omega, List.getElem?_eq_getElem hi', ?_⟩
    have := he.no G[j + A.evalstop - e - 1] (by rw [hlen]; omega) ?_
    · rw [hlen, show j + A.evalstop + 1 - 1 - e = (j + A.evalstop - e - 1) + 1 by omega, List.take_take, Nat.min_eq_left (by omega), List.take_succ_cons, List.flatten_cons] at this
      exact this
    · rw [hlen, show j + A.evalstop + 1 - 1 - e = (j + A.evalstop - e - 1) + 1 by omega, List.getElem?_take, if_pos (by omega), List.getElem?_cons_succ,
        List.getElem?_eq_getElem hi']

end

end Verif.Props
