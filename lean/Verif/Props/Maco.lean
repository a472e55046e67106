import Verif.Proof.Maco
import Verif.Props.Gaco
import Verif.Props.Nsga2
import Verif.Props.HyCon3d

/-!
# C119 to C122: a run of `maco`
-/

set_option autoImplicit false

namespace Verif.Props

open Verif Run Prob Pop Alg Spec

variable {K σ : Type} [Field K] [LinearOrder K]

/-! ### C119: what is required -/

/-- C119. The constructor throws in exactly the documented cases. NaN is not refused; `q`, `ker` and `evalstop` are not checked. -/
theorem C119_ctor (gen ker : Nat) (q : Fl K) (threshold nGenMark evalstop : Nat) (focus : Fl K) (memory : Bool) :
    (maCtor gen ker q threshold nGenMark evalstop focus memory = .ok (⟨gen, ker, threshold, nGenMark, evalstop, focus, memory⟩, ⟨q, 0, [], 0, 1, [], []⟩) ∨
      maCtor gen ker q threshold nGenMark evalstop focus memory = .throws .invalidArgument) ∧
    (maCtor gen ker q threshold nGenMark evalstop focus memory = .throws .invalidArgument ↔
      focus < .fin 0 ∨ gen ≠ 0 ∧ (threshold = 0 ∨ memory = false ∧ gen < threshold)) := by
  have key : ∀ a : Fl K, Fl.lt a (.fin 0) = true ↔ a < .fin 0 := by
    intro a
    cases a <;> simp [Fl.lt, Fl.lt_def, Fl.cls]
  unfold maCtor
  simp only [key]
  split
  · rename_i h; simp [h]
  rename_i h1
  split
  · rename_i h
    refine ⟨Or.inr rfl, fun _ => Or.inr ⟨h.2.1, ?_⟩, fun _ => rfl⟩
    rcases h.1 with h' | h'
    · exact Or.inl (by omega)
    · exact Or.inr ⟨h.2.2, h'⟩
  rename_i h2
  split
  · rename_i h
    exact ⟨Or.inr rfl, fun _ => Or.inr ⟨h.2.1, Or.inl (by omega)⟩, fun _ => rfl⟩
  rename_i h3
  refine ⟨Or.inl rfl, (fun h => by cases h), ?_⟩
  rintro (h | ⟨h, h' | ⟨h', h''⟩⟩)
  · exact absurd h h1
  · cases memory
    · exact absurd ⟨Or.inl (by omega), h, rfl⟩ h2
    · exact absurd ⟨by omega, h, rfl⟩ h3
  · exact absurd ⟨Or.inr h'', h, h'⟩ h2

/-- C119. `evolve` throws, before anything is evaluated or changed in the population, if that is empty, if the problem is stochastic, has constraints
or a single objective, or if there are fewer individuals than the archive has rows. -/
theorem C119_throws (v : MaEnv K σ) (P : AProb K) (A : Maco K) (bfe : Option (Batch K)) (fuel : Nat) (m : MaMem K) (s : St K σ)
    (h : s.pop.id.length = 0 ∨ P.info.stochastic = true ∨
      A.gens ≠ 0 ∧ (s.pop.id.length < A.ker ∨ P.info.nec + P.info.nic ≠ 0 ∨ P.info.nobj + P.info.nec + P.info.nic < 2)) :
    maEvolve v P A bfe fuel m s = (.throws .invalidArgument, s) := by
  unfold maEvolve
  show Run.bind _ _ _ = _
  unfold Run.bind
  dsimp only [Run.get]
  split
  · rfl
  rename_i h0
  split
  · rfl
  rename_i h1
  rcases h with h | h | ⟨hg, h⟩
  · exact absurd h h0
  · exact absurd h h1
  rw [if_neg hg]
  split
  · rfl
  rename_i h2
  split
  · rfl
  rename_i h3
  split
  · rfl
  rename_i h4
  exfalso
  rcases h with h | h | h
  · exact h2 h
  · exact h3 (by simpa only [Info.nc] using h)
  · exact h4 (by simpa only [Info.nf] using h)

/-- C119. Nothing is evaluated and the population stays as it is if there are no generations. With memory the call is counted all the same, and the
population is stored if it is the first call. -/
theorem C119_no_generations (v : MaEnv K σ) (P : AProb K) (A : Maco K) (bfe : Option (Batch K)) (fuel : Nat) (m : MaMem K) (s : St K σ)
    (hn : s.pop.id.length ≠ 0) (hs : P.info.stochastic = false) (hg : A.gens = 0) :
    ∃ m', maEvolve v P A bfe fuel m s = (.ok (m', []), s) ∧ (A.memory = false → m' = m) ∧
      (A.memory = true → m.counter = 0 → m' = { m with counter := 1, popX := s.pop.x, popF := s.pop.f }) := by
  refine ⟨maCount A m s.pop, ?_, fun hm => ?_, fun hm h0 => ?_⟩
  · unfold maEvolve
    show Run.bind _ _ _ = _
    unfold Run.bind
    dsimp only [Run.get]
    rw [if_neg hn, hs, if_neg (by simp), if_pos hg]
    rfl
  · unfold maCount
    rw [if_neg (by rw [hm]; simp)]
  · unfold maCount
    rw [if_pos hm, h0]
    rfl

/-! ### C120: what is evaluated, and what is in the population afterwards -/

/-- Where the first archive comes from: the individuals, or with memory and after the first call the archive and the population of the last one. -/
def maSource (P : AProb K) (A : Maco K) (m : MaMem K) (p : Pop.State K) : List (List (Fl K) × List (Fl K)) :=
  if A.memory = true ∧ 1 ≤ m.counter then m.arch.map (maInd P) ++ m.popX.zip m.popF else individuals p

/-- What a run does. -/
structure MaDone (P : AProb K) (A : Maco K) (m : MaMem K) (s s' : St K σ) : Prop where
  /-- the individuals keep their IDs, the population is sound -/
  inv : Inv P.info s'.pop
  id : s'.pop.id = s.pop.id
  /-- the generations `G`, each of as many evaluations as there are individuals -/
  gens : ∃ G : List (List (List (Fl K) × List (Fl K))), G.length ≤ A.gens ∧ (∀ g ∈ G, g.length = s.pop.id.length) ∧ s'.evs = s.evs ++ asCalls G.flatten ∧
    (∀ p ∈ G.flatten, (∃ h, P.fit h p.1 = .ok p.2) ∧ GaBox P p.1) ∧
    /- if the run stopped early, the individuals are those of the last generation -/
    (G.length < A.gens ∧ A.evalstop ≠ 0 ∧ individuals s'.pop = G.getLastD (individuals s.pop) ∨
    /- otherwise the first ones come from the archive, that is, from what was before the last generation -/
      G.length = A.gens ∧ ∃ top, top.length = A.ker ∧ (∀ p ∈ top, p ∈ maSource P A m s.pop ++ G.dropLast.flatten) ∧
        individuals s'.pop = top ++ (G.getLastD []).drop A.ker)

theorem maFull_mem {v : MaEnv K σ} {P : AProb K} {A : Maco K} {n : Nat} {a b : MaState K} (hc : A.memory = true → 1 ≤ a.m.counter) (h : MaFull v P A n a b) :
    b.m.counter = a.m.counter ∧ (A.memory = true → b.m.popX = b.xs ∧ b.m.popF = b.fs ∧ b.m.arch = b.arch) ∧ maStart A b.m b.arch = b.arch ∧
      maXs A b.m b.xs = b.xs ∧ maFs A b.m b.fs = b.fs := by
  obtain ⟨-, -, -, -, u, z, check, m2, sig, hw⟩ := h
  obtain ⟨q, hq⟩ := maPhero_mem v A (a.g + 1) (maM3 A (a.g + 1) m2 b.arch) a.cum
  have hm2 : m2.counter = a.m.counter := by rw [hw.head.mem]; exact (maM1_counter A (a.g + 1) a.m u.arch).1
  have hcnt : b.m.counter = a.m.counter := by
    rw [hw.mem, hq]
    unfold maM4
    split
    · exact (maM3_counter A (a.g + 1) m2 b.arch).1.trans hm2
    · exact (maM3_counter A (a.g + 1) m2 b.arch).1.trans hm2
  have hmem : A.memory = true → b.m.popX = b.xs ∧ b.m.popF = b.fs ∧ b.m.arch = b.arch := by
    intro hm
    rw [hw.mem, hq]
    unfold maM4
    rw [if_pos hm]
    refine ⟨rfl, rfl, ?_⟩
    dsimp only
    have hla := maLater_eq (A := A) (gen := a.g + 1) (by omega) hc hm2
    have hup := hw.arch
    unfold maM3
    by_cases hf : maFresh A a.m (a.g + 1) = true
    · rw [hf] at hla
      unfold MaUpdated at hup
      rw [if_pos hf] at hup
      rw [if_neg (by rw [hla]; simp), hw.head.mem]
      unfold maM1 maKeep
      rw [if_pos hf, if_pos hm]
      exact hup.symm
    · rw [Bool.not_eq_true] at hf
      rw [hf] at hla
      rw [if_pos (by rw [hla]; rfl)]
      unfold maKeep
      rw [if_pos hm]
  refine ⟨hcnt, hmem, ?_, ?_, ?_⟩
  · unfold maStart
    split
    · rename_i h; exact (hmem h.1).2.2
    · rfl
  · unfold maXs
    split
    · rename_i h; exact (hmem h).1
    · rfl
  · unfold maFs
    split
    · rename_i h; exact (hmem h).2.1
    · rfl

/-- what is known at the beginning -/
def maSource' (P : AProb K) (A : Maco K) (a : MaState K) : List (List (Fl K) × List (Fl K)) :=
  if A.memory = true ∧ a.m.counter > 1 then a.m.arch.map (maInd P) ++ a.m.popX.zip a.m.popF else (maXs A a.m a.xs).zip (maFs A a.m a.fs)

/-- The generations of a run, and where the rows of the archive come from. -/
theorem maSteps_gens {v : MaEnv K σ} {P : AProb K} {A : Maco K} {n : Nat} {a : MaState K} (ha : a.g = 0) (hc : A.memory = true → 1 ≤ a.m.counter) :
    ∀ (k : Nat) (b : MaState K), Steps (MaFull v P A n) k a b → b.g = k ∧ b.log.length = a.log.length + k ∧ b.m.counter = a.m.counter ∧
      (0 < k → (A.memory = true → b.m.popX = b.xs ∧ b.m.popF = b.fs ∧ b.m.arch = b.arch) ∧ maStart A b.m b.arch = b.arch ∧ maXs A b.m b.xs = b.xs ∧
        maFs A b.m b.fs = b.fs) ∧
      ∃ G : List (List (List (Fl K) × List (Fl K))), G.length = k ∧ (∀ g ∈ G, g.length = n) ∧ b.evs = a.evs ++ asCalls G.flatten ∧
        b.xs.zip b.fs = G.getLastD (a.xs.zip a.fs) ∧ (0 < k → ∀ r ∈ b.arch, maInd P r ∈ maSource' P A a ++ G.dropLast.flatten) := by
  intro k
  induction k with
  | zero =>
    intro b h
    cases h
    exact ⟨ha, rfl, rfl, fun h => absurd h (by omega), [], rfl, by simp, by simp [asCalls], rfl, fun h => absurd h (by omega)⟩
  | succ k ih =>
    intro c h
    cases h with
    | snoc h hF =>
      rename_i b
      obtain ⟨hg, hlog, hcnt, hst, G, hl, hn, he, hpop, harch⟩ := ih b h
      obtain ⟨m1, m2, m3, m4, m5⟩ := maFull_mem (by rw [hcnt]; exact hc) hF
      obtain ⟨hpa, hpb, -, -, u, z, check, mm, sig, hw⟩ := hF
      refine ⟨by rw [hw.g, hg], by rw [hw.log, List.length_append, hlog]; rfl, by rw [m1, hcnt], fun _ => ⟨m2, m3, m4, m5⟩, G ++ [c.xs.zip c.fs], by simp [hl], ?_, ?_, ?_, ?_⟩
      · intro g hg
        rcases List.mem_append.mp hg with h | h
        · exact hn g h
        · rw [List.mem_singleton.mp h, List.length_zip, hpb.xl, hpb.fl, Nat.min_self]
      · rw [hw.ev, he, List.append_assoc]
        congr 1
        simp [asCalls, List.flatten_append]
      · simp
      · intro _ r hr
        rw [List.dropLast_concat]
        have hr' := hw.from_ r hr
        by_cases hk0 : 0 < k
        · obtain ⟨_, h3, h4, h5⟩ := hst hk0
          rw [h3, h4, h5] at hr'
          have pop : ∀ p ∈ b.xs.zip b.fs, p ∈ maSource' P A a ++ G.flatten := by
            intro p hp
            rw [hpop] at hp
            rcases G.eq_nil_or_concat with rfl | ⟨G', g, rfl⟩
            · simp at hl; omega
            · simp only [List.concat_eq_append] at hp ⊢
              simp at hp
              simp [hp]
          unfold maCands at hr'
          split at hr'
          · exact pop _ hr'
          · rcases List.mem_append.mp hr' with h | h
            · obtain ⟨r', hr2, e⟩ := List.mem_map.mp h
              rw [← e]
              rcases List.mem_append.mp (harch hk0 r' hr2) with h | h
              · exact List.mem_append_left _ h
              · refine List.mem_append_right _ ?_
                obtain ⟨g, hg, hp⟩ := List.mem_flatten.mp h
                exact List.mem_flatten.mpr ⟨g, List.dropLast_subset _ hg, hp⟩
            · exact pop _ h
        · have hk0' : k = 0 := by omega
          subst hk0'
          cases h
          refine List.mem_append_left _ ?_
          unfold maCands at hr'
          unfold maSource'
          split at hr'
          · rename_i hf
            split
            · rename_i hcm
              unfold maFresh at hf
              rw [hcm.1] at hf
              simp at hf
              omega
            · exact hr'
          · rename_i hf
            have hcm : A.memory = true ∧ a.m.counter > 1 := by
              unfold maFresh at hf
              rw [ha] at hf
              cases hm : A.memory
              · rw [hm] at hf; simp at hf
              · have := hc hm
                rw [hm] at hf
                simp at hf
                exact ⟨rfl, by omega⟩
            rw [if_pos hcm]
            unfold maStart maXs maFs at hr'
            rw [if_pos hcm, if_pos hcm.1, if_pos hcm.1] at hr'
            exact hr'

section
variable [IsStrictOrderedRing K]

/-- C120. A run of `maco` evaluates, in every generation, as many new points as there are individuals, at most `gens` times. Each component of a
point is within the bounds unless it is NaN; integer variables get integers. At the end of a run that was not stopped by `evalstop`, the first `ker`
individuals are those of the archive, found before the last generation; the others, and all of them if the run was stopped, are those of the last
generation, whatever their fitness. If the run fails, then because the user's function, the batch evaluator or the computation of the hypervolumes
did. The behaviour is defined if the members are as the constructor or a run left them and `ker` is at least 2. -/
theorem C120_evolve_partial (v : MaEnv K σ) (rep : K → Prop) (hg : v.g.Lawful rep) (hsrt : ValidSort v.srt) (hrd : RoundOk v.rd) (P : AProb K)
    (hv : HvSane v.hv P.info.nf) (hP : SaneBounds P.lb P.ub P.nix) (hnx : P.info.nx = P.lb.length) (hst : P.info.stochastic = false) (hnobj : 1 < P.info.nobj)
    (hnc : P.info.nc = 0) (A : Maco K) (hker : 2 ≤ A.ker)
    (C : List (Fl K) → Prop) (hC : ∀ h x f, f.length = P.info.nf → P.fit h x = .ok f → C f)
    (hgens : A.gens + 1 < 2 ^ 32) (hgens0 : A.gens ≠ 0) (bfe : Option (Batch K)) (hok : ∀ b, bfe = some b → BatchOk P b)
    (s : St K σ) (hi : Inv P.info s.pop) (hs : ∀ f ∈ s.pop.f, C f) (hk : A.ker ≤ s.pop.id.length) (m : MaMem K) (hm : MaMemOk P A C s.pop.id.length m)
    (fuel : Nat) (hfuel : A.gens < fuel) :
    wp (maEvolve v P A bfe fuel m) (fun r s' => MaDone P A m s s' ∧ r.2.length ≤ A.gens ∧
        (A.memory = true → r.1.counter = m.counter + 1 ∧ (r.1.counter + 1 < 2 ^ 32 → MaMemOk P A C s.pop.id.length r.1)))
      (MaFailed v P C bfe s) s := by
  refine (ma_run hg hsrt hrd hv hP hnx hst hnobj hnc hker hC hgens hgens0 hok hi hs hk hm hfuel).mono ?_ (fun _ _ h => h)
  rintro r s' ⟨⟨new, ht⟩, b, rfl, hcase⟩
  obtain ⟨hca, hcm⟩ := maCount_counter hm s.pop
  have hc1 : A.memory = true → 1 ≤ (maSt (maInit P A m s.pop) 0 s).m.counter := by
    intro h
    have := (hcm h).1
    show 1 ≤ (maCount A m s.pop).counter
    omega
  have hsrc : maSource' P A (maSt (maInit P A m s.pop) 0 s) = maSource P A m s.pop := by
    unfold maSource' maSource
    have e : (A.memory = true ∧ (maSt (maInit P A m s.pop) 0 s).m.counter > 1) ↔ (A.memory = true ∧ 1 ≤ m.counter) := by
      refine and_congr_right fun h => ?_
      have := (hcm h).1
      show (maCount A m s.pop).counter > 1 ↔ _
      omega
    by_cases h : A.memory = true ∧ 1 ≤ m.counter
    · rw [if_pos h, if_pos (e.mpr h)]
      show (maCount A m s.pop).arch.map (maInd P) ++ (maCount A m s.pop).popX.zip (maCount A m s.pop).popF = _
      rw [hca, ((hcm h.1).2.2 h.2).1, ((hcm h.1).2.2 h.2).2]
    · rw [if_neg h, if_neg (fun h' => h (e.mp h'))]
      unfold maXs maFs individuals
      by_cases hmm : A.memory = true
      · have h0 : m.counter = 0 := by
          by_contra h0
          exact h ⟨hmm, by omega⟩
        rw [if_pos hmm, if_pos hmm]
        show (maCount A m s.pop).popX.zip (maCount A m s.pop).popF = _
        rw [((hcm hmm).2.1 h0).1, ((hcm hmm).2.1 h0).2]
      · rw [if_neg hmm, if_neg hmm]
        rfl
  have user : ∀ G : List (List (List (Fl K) × List (Fl K))), s'.evs = s.evs ++ asCalls G.flatten →
      ∀ p ∈ G.flatten, (∃ h, P.fit h p.1 = .ok p.2) ∧ GaBox P p.1 := by
    intro G he p hp
    have hnew : new = asCalls G.flatten := by
      have := ht.evs
      rw [he] at this
      exact (List.append_cancel_left this).symm
    have hmem : (p.1, Except.ok p.2) ∈ new := by rw [hnew]; exact List.mem_map_of_mem hp
    obtain ⟨h, e⟩ := ht.user _ hmem
    exact ⟨⟨h, e.symm⟩, ht.box _ hmem⟩
  rcases hcase with ⟨s1, hmid, hend⟩ | ⟨k, hk1, hk2, b1, u, z, check, m2, hmid, hhead, hstop, rfl⟩
  · obtain ⟨g1, g0, g2, g3, G, hl, hn, he, hpop, harch⟩ := maSteps_gens rfl hc1 _ _ hmid.run
    have hpos : 0 < A.gens := by omega
    have hev : s'.evs = s.evs ++ asCalls G.flatten := by rw [hend.evs]; exact he
    refine ⟨⟨ht.inv, ht.id, G, by omega, hn, hev, user G hev, Or.inr ⟨hl, b.arch.map (maInd P), by rw [List.length_map, (hmid.real hpos).1], ?_, ?_⟩⟩, ?_, ?_⟩
    · intro p hp
      obtain ⟨r, hr, rfl⟩ := List.mem_map.mp hp
      rw [← hsrc]
      exact harch hpos r hr
    · have hne : G ≠ [] := by intro h; rw [h] at hl; simp at hl; omega
      have hlast : individuals s1.pop = G.getLastD [] := by
        rw [show individuals s1.pop = _ from hpop]
        rcases G.eq_nil_or_concat with rfl | ⟨G', g, rfl⟩
        · exact absurd rfl hne
        · simp
      rw [← hlast]
      unfold individuals
      rw [hend.x, hend.f, List.zip_append (by simp), ← show (s1.pop.x.zip s1.pop.f).drop A.ker = (s1.pop.x.drop A.ker).zip (s1.pop.f.drop A.ker) from List.drop_zipWith]
      congr 1
      apply List.ext_getElem
      · simp
      · intro i h1 h2
        simp
    · have : b.log.length = 0 + A.gens := g0
      dsimp only
      omega
    · intro hmm
      have hcb : b.m.counter = m.counter + 1 := g2.trans (hcm hmm).1
      refine ⟨hcb, fun hlt _ => ⟨hlt, fun _ => ?_⟩⟩
      obtain ⟨q1, q2, q3⟩ := hmid.mem hmm
      obtain ⟨_, _, q4⟩ := hmid.kept hmm hpos
      have hst' : maStart A b.m b.arch = b.arch := (g3 hpos).2.1
      refine ⟨by dsimp only; rw [q4]; exact hmid.real hpos, ?_, q1, q2⟩
      dsimp only
      rw [q4, ← hst']
      exact hmid.archC (Or.inr hpos)
  · obtain ⟨g1, g0, g2, g3, G, hl, hn, he, hpop, harch⟩ := maSteps_gens rfl hc1 _ _ hmid.run
    refine ⟨⟨ht.inv, ht.id, G, by omega, hn, he, user G he, Or.inl ⟨by omega, hstop.1, hpop⟩⟩, ?_, ?_⟩
    · have : b1.log.length = 0 + (k - 1) := g0
      dsimp only
      omega
    · intro hmm
      dsimp only
      obtain ⟨e1, e2, e3, _⟩ := maM1_counter A (k - 1 + 1) b1.m u.arch
      have hm2 : m2 = maCounters A (maM1 A (k - 1 + 1) b1.m u.arch) check := hhead.mem
      have f1 : m2.counter = b1.m.counter := by rw [hm2]; exact e1
      have f2 : m2.popX = b1.m.popX := by rw [hm2]; exact e2
      have f3 : m2.popF = b1.m.popF := by rw [hm2]; exact e3
      have f4 : m2.arch = (maM1 A (k - 1 + 1) b1.m u.arch).arch := by rw [hm2]; rfl
      have hcb : b1.m.counter = m.counter + 1 := g2.trans (hcm hmm).1
      obtain ⟨q1, q2, q3⟩ := hmid.mem hmm
      refine ⟨f1.trans hcb, fun hlt _ => ⟨hlt, fun _ => ?_⟩⟩
      rw [f2, f3, f4]
      have hxs : maXs A b1.m s'.pop.x = b1.m.popX := if_pos hmm
      have hfs : maFs A b1.m s'.pop.f = b1.m.popF := if_pos hmm
      have htop : MaTopOf v P A (k - 1 + 1) b1.m (maStart A b1.m b1.arch) (maXs A b1.m s'.pop.x) (maFs A b1.m s'.pop.f) u := hhead.top
      rw [hxs, hfs] at htop
      unfold maM1 maKeep
      cases htop with
      | fresh hf arch' fit hkk _ _ =>
        rw [if_pos hf, if_pos hmm]
        obtain ⟨p1, _, p3⟩ := maKept_arch q1 hkk
        exact ⟨p1, fun r hr => q2 _ (p3 r hr), q1, q2⟩
      | later hf =>
        rw [if_neg (by rw [hf]; simp)]
        have hcm1 : A.memory = true ∧ b1.m.counter > 1 := by
          refine ⟨hmm, ?_⟩
          unfold maFresh at hf
          rw [hmm] at hf
          simp at hf
          omega
        have hsa : maStart A b1.m b1.arch = b1.m.arch := if_pos hcm1
        have a1 := hmid.arch
        have a2 := hmid.archC (Or.inl hcm1)
        rw [hsa] at a1 a2
        exact ⟨a1, a2, q1, q2⟩

end

/-! ### C121: what the archive keeps -/

omit [Field K] in
theorem maMin_exists : ∀ {l : List (Fl K)}, l ≠ [] → ∃ a ∈ l, ∀ b ∈ l, a ≤ b
  | [], h => absurd rfl h
  | [a], _ => ⟨a, by simp, by simp⟩
  | a :: b :: l, _ => by
    obtain ⟨c, hc, hl⟩ := maMin_exists (l := b :: l) (by simp)
    rcases le_total a c with h | h
    · refine ⟨a, by simp, fun x hx => ?_⟩
      rcases List.mem_cons.mp hx with rfl | hx
      · exact le_rfl
      · exact h.trans (hl x hx)
    · refine ⟨c, List.mem_cons_of_mem _ hc, fun x hx => ?_⟩
      rcases List.mem_cons.mp hx with rfl | hx
      · exact h
      · exact hl x hx

omit [Field K] in
/-- everything outside the first front is dominated by something in it -/
theorem maFront_below {cf : List (List (Fl K))} {f0 : List Nat} {t : List (List Nat)} (hL : IsLayering cf (f0 :: t)) {k : Nat} (hk : k < cf.length) :
    ∃ j ∈ f0, j = k ∨ DomIdx cf j k := by
  have hmem : k ∈ (f0 :: t).flatten := hL.partition.mem_iff.mpr (List.mem_range.mpr hk)
  obtain ⟨f, hf, hkf⟩ := List.mem_flatten.mp hmem
  obtain ⟨l, hl, rfl⟩ := List.getElem_of_mem hf
  clear hmem hf hk
  induction l generalizing k with
  | zero => exact ⟨k, hkf, Or.inl rfl⟩
  | succ l ih =>
    obtain ⟨_, _, j, hd, hj⟩ := (hL.layer l hl k).mp hkf
    obtain ⟨i, hi, h⟩ := ih (k := j) (by omega) hj
    refine ⟨i, hi, Or.inr ?_⟩
    rcases h with rfl | h
    · exact hd
    · exact MO.domIdx_trans h hd

/-- A part of a list of lists, with all lists before that of each of its members. -/
theorem maTake_flatten {α : Type} : ∀ (us : List (List α)) (n : Nat), ∀ j ∈ us.flatten.take n, ∃ (m : Nat) (u : List α), us[m]? = some u ∧ j ∈ u ∧
    ∀ (m' : Nat) (u' : List α), m' < m → us[m']? = some u' → ∀ k ∈ u', k ∈ us.flatten.take n := by
  intro us
  induction us with
  | nil => intro n j hj; simp at hj
  | cons u us ih =>
    intro n j hj
    rw [List.flatten_cons, List.take_append] at hj ⊢
    by_cases h : j ∈ u.take n
    · exact ⟨0, u, rfl, List.mem_of_mem_take h, fun m' _ hm => absurd hm (by omega)⟩
    · have hj2 : j ∈ us.flatten.take (n - u.length) := (List.mem_append.mp hj).resolve_left h
      obtain ⟨m, w, h1, h2, h3⟩ := ih _ j hj2
      refine ⟨m + 1, w, h1, h2, fun m' u' hm hu k hk => ?_⟩
      have hn : u.length ≤ n := by
        by_contra hlt
        rw [show n - u.length = 0 by omega, List.take_zero] at hj2
        cases hj2
      cases m' with
      | zero =>
        rw [List.getElem?_cons_zero, Option.some.injEq] at hu
        subst hu
        rw [List.take_of_length_le hn]
        exact List.mem_append_left _ hk
      | succ m' =>
        rw [List.getElem?_cons_succ] at hu
        exact List.mem_append_right _ (h3 m' u' (by omega) hu k hk)

/-- The individuals `q` are a good choice of `ker` among those with fitness `cf`. -/
structure MaGood (nf ker : Nat) (cf : List (List (Fl K))) (q : List Nat) : Prop where
  /-- as many as there is room for -/
  len : q.length = ker
  lt : ∀ j ∈ q, j < cf.length
  /-- whatever dominates one of them is one of them -/
  closed : ∀ j ∈ q, ∀ k, DomIdx cf k j → k ∈ q
  /-- either all individuals that are not dominated are among them, or only such -/
  front : (∀ j < cf.length, (∀ k, ¬ DomIdx cf k j) → j ∈ q) ∨ (∀ j ∈ q, ∀ k, ¬ DomIdx cf k j) ∧
    ∃ f : List Nat, f.Nodup ∧ ker ≤ f.length ∧ ∀ j ∈ f, j < cf.length ∧ ∀ k, ¬ DomIdx cf k j
  /-- the best value of each objective is kept, for as many objectives as there are places -/
  best : ∀ i < min nf ker, ∃ j ∈ q, ∃ a, (cf.getD j [])[i]? = some a ∧ ∀ f ∈ cf, ∀ b, f[i]? = some b → a ≤ b

theorem maGood_of {v : MaEnv K σ} {ker nf : Nat} (hker : 0 < ker) {off : Fl K} {cf : List (List (Fl K))} (hd : ∀ f ∈ cf, f.length = nf) {q : List Nat}
    (h : MaChosen v ker nf off cf q) : MaGood nf ker cf q := by
  obtain ⟨hql, hqlt⟩ := maChosen_lt h
  obtain ⟨f0, t, us, hL, hus, hle, h⟩ := h
  have hfirst : ∀ i, i ∈ f0 ↔ i < cf.length ∧ ∀ j, ¬ DomIdx cf j i := fun i => hL.first (by simp) i
  -- minimum over the front is the minimum
  have hmin : ∀ (i : Nat) (a : Fl K), (∀ k ∈ f0, ∀ b, (cf.getD k [])[i]? = some b → a ≤ b) → ∀ f ∈ cf, ∀ b, f[i]? = some b → a ≤ b := by
    intro i a ha f hf b hb
    obtain ⟨k, hk, rfl⟩ := List.getElem_of_mem hf
    obtain ⟨j, hj, h | h⟩ := maFront_below hL hk
    · subst h
      exact ha j hj b (by rw [List.getD_eq_getElem _ _ hk]; exact hb)
    · obtain ⟨hj1, hk1, hl, hlt, _⟩ := h
      obtain ⟨hib, rfl⟩ := List.getElem?_eq_some_iff.mp hb
      have hij : i < cf[j].length := by omega
      refine (ha j hj cf[j][i] ?_).trans (hlt i hij hib)
      rw [List.getD_eq_getElem _ _ hj1, List.getElem?_eq_getElem hij]
  have husne : us ≠ [] := by
    rintro rfl
    simp at hle
    omega
  obtain ⟨u0, us', rfl⟩ := List.exists_cons_of_ne_nil husne
  have hu0 : u0.Perm f0 := by
    rw [List.length_cons, List.take_succ_cons] at hus
    cases hus with
    | cons h _ => exact h.perm
  rcases h with ⟨hlt, rfl⟩ | ⟨hge, h1, es, hes, rfl⟩
  · have hsub : ∀ j ∈ f0, j ∈ (u0 :: us').flatten.take ker := by
      intro j hj
      rw [List.flatten_cons, List.take_append]
      refine List.mem_append_left _ ?_
      rw [List.take_of_length_le (by rw [hu0.length_eq]; omega)]
      exact hu0.mem_iff.mpr hj
    refine ⟨hql, hqlt, ?_, Or.inl (fun j hj hn => hsub j ((hfirst j).mpr ⟨hj, hn⟩)), ?_⟩
    · intro j hj k hk
      obtain ⟨m, u, h1, h2, h3⟩ := maTake_flatten _ _ j hj
      have hm : m < (u0 :: us').length := (List.getElem?_eq_some_iff.mp h1).1
      have hm' : m < ((f0 :: t).take (u0 :: us').length).length := by rw [hus.length_eq]; exact hm
      have hmt : m < (f0 :: t).length := by rw [List.length_take] at hm'; omega
      have per : ∀ (l : Nat) (hl : l < (u0 :: us').length) (hl2 : l < (f0 :: t).length), ((u0 :: us')[l]).Perm ((f0 :: t)[l]) := by
        intro l hl hl2
        have hl' : l < ((f0 :: t).take (u0 :: us').length).length := by rw [hus.length_eq]; exact hl
        have := hus.get (i := l) hl' hl
        rw [List.get_eq_getElem, List.get_eq_getElem, List.getElem_take] at this
        exact this.perm
      have hju : j ∈ (f0 :: t)[m] := by
        rw [List.getElem?_eq_getElem hm, Option.some.injEq] at h1
        rw [← h1] at h2
        exact (per m hm hmt).mem_iff.mp h2
      cases m with
      | zero => exact absurd hk (((hfirst j).mp hju).2 k)
      | succ m =>
        obtain ⟨l, f, hlm, hlf, hkf⟩ := ((hL.layer m hmt j).mp hju).2.1 k hk
        obtain ⟨hl2, rfl⟩ := List.getElem?_eq_some_iff.mp hlf
        have hl : l < (u0 :: us').length := by omega
        exact h3 l _ (by omega) (List.getElem?_eq_getElem hl) k ((per l hl hl2).mem_iff.mpr hkf)
    · intro i hi
      have hne : (f0.map (fun j => (cf.getD j []).getD i .nan)) ≠ [] := by
        simpa using hL.nonempty f0 (by simp)
      have hin : ∀ j ∈ f0, ∃ hj : j < cf.length, ∃ hi' : i < cf[j].length, (cf.getD j [])[i]? = some cf[j][i] ∧ (cf.getD j []).getD i .nan = cf[j][i] := by
        intro j hj
        have hjl := ((hfirst j).mp hj).1
        have hi' : i < cf[j].length := by rw [hd _ (List.getElem_mem hjl)]; omega
        exact ⟨hjl, hi', by rw [List.getD_eq_getElem _ _ hjl, List.getElem?_eq_getElem hi'], by rw [List.getD_eq_getElem _ _ hjl, List.getD_eq_getElem _ _ hi']⟩
      obtain ⟨a, ha, hal⟩ : ∃ a ∈ f0.map (fun j => (cf.getD j []).getD i .nan), ∀ b ∈ f0.map (fun j => (cf.getD j []).getD i .nan), a ≤ b := by
        exact maMin_exists hne
      obtain ⟨j, hj, rfl⟩ := List.mem_map.mp ha
      obtain ⟨hjl, hi', e1, e2⟩ := hin j hj
      refine ⟨j, hsub j hj, cf[j][i], e1, hmin i _ fun k hk b hb => ?_⟩
      obtain ⟨_, _, e3, e4⟩ := hin k hk
      rw [e3, Option.some.injEq] at hb
      have := hal _ (List.mem_map_of_mem hk)
      rw [e2, e4, hb] at this
      exact this
  · have hus' : us' = [] := by simpa using h1
    subst hus'
    have hfl : [u0].flatten = u0 := by simp
    rw [hfl] at hqlt hql ⊢
    have hu0l : ker ≤ u0.length := by rw [hu0.length_eq]; exact hge
    have hq0 : ∀ j ∈ maEdged ker nf (u0.take ker) es, j ∈ f0 := by
      intro j hj
      obtain ⟨i, hi, rfl⟩ := List.mem_map.mp hj
      have hi' := List.mem_range.mp hi
      split
      · rename_i hlt
        have he : ker - 1 - i < es.length := by rw [hes.1]; omega
        rw [List.getD_eq_getElem _ _ he]
        exact (hes.2 _ _ (List.getElem?_eq_getElem he)).1
      · have he : i < (u0.take ker).length := by rw [List.length_take]; omega
        rw [List.getD_eq_getElem _ _ he]
        exact hu0.mem_iff.mp (List.mem_of_mem_take (List.getElem_mem he))
    refine ⟨hql, hqlt, fun j hj k hk => absurd hk (((hfirst j).mp (hq0 j hj)).2 k), Or.inr ⟨fun j hj => ((hfirst j).mp (hq0 j hj)).2, f0, ?_, hge,
      fun j hj => (hfirst j).mp hj⟩, ?_⟩
    · have hnd : (f0 :: t).flatten.Nodup := hL.partition.nodup_iff.mpr List.nodup_range
      rw [List.flatten_cons] at hnd
      exact (List.nodup_append.mp hnd).1
    · intro i hi
      have he : i < es.length := by rw [hes.1]; omega
      obtain ⟨h2, a, h3, h4⟩ := hes.2 i _ (List.getElem?_eq_getElem he)
      refine ⟨es[i], ?_, a, h3, hmin i a h4⟩
      unfold maEdged
      refine List.mem_map.mpr ⟨ker - 1 - i, List.mem_range.mpr (by omega), ?_⟩
      have e : ker - 1 - (ker - 1 - i) = i := by omega
      rw [e, if_pos (by omega), List.getD_eq_getElem _ _ he]

/-- The archive `T` holds `ker` of the individuals `l`, chosen by front and then by exclusive hypervolume. -/
def MaPick (v : MaEnv K σ) (ker nf : Nat) (off : Fl K) (l T : List (List (Fl K) × List (Fl K))) : Prop :=
  ∃ q, MaChosen v ker nf off (l.map Prod.snd) q ∧ T = q.map (fun j => l.getD j ([], []))

/-- The archive `T` and the ideal points logged, after populations came by one after the other. -/
inductive MaArchives (v : MaEnv K σ) (ker nf : Nat) : List (List (List (Fl K) × List (Fl K))) → List (List (Fl K) × List (Fl K)) → List (List (Fl K)) → Prop
  /-- the first archive is chosen among the individuals; the point logged is the ideal one of some of them -/
  | first (g T : List (List (Fl K) × List (Fl K))) (z : List (Fl K)) (fit : List (List (Fl K))) (hp : MaPick v ker nf (.fin (1 / 10)) g T)
      (hf : fit.length = ker ∧ ∀ f ∈ fit, f ∈ g.map Prod.snd) (hz : MaIdeal nf fit z) : MaArchives v ker nf [g] T [z]
  /-- the next one among those of the archive and the new ones; the point logged is the ideal one of the archive before -/
  | next (ps : List (List (List (Fl K) × List (Fl K)))) (T : List (List (Fl K) × List (Fl K))) (log : List (List (Fl K))) (h : MaArchives v ker nf ps T log)
      (g T' : List (List (Fl K) × List (Fl K))) (z : List (Fl K)) (hp : MaPick v ker nf (.fin (1 / 100)) (T ++ g) T') (hz : MaIdeal nf (T.map Prod.snd) z) :
      MaArchives v ker nf (ps ++ [g]) T' (log ++ [z])

theorem maPick_of {v : MaEnv K σ} {P : AProb K} {n ker : Nat} {off : Fl K} {cx cf arch : List (List (Fl K))} (hc : GaPop P n cx cf)
    (h : MaKept v P ker off cx cf arch) : MaPick v ker P.info.nf off (cx.zip cf) (arch.map (maInd P)) := by
  obtain ⟨q, hq, rfl⟩ := h
  obtain ⟨_, hlt⟩ := maChosen_lt hq
  refine ⟨q, by rw [List.map_snd_zip (by rw [hc.xl, hc.fl])]; exact hq, ?_⟩
  rw [List.map_map]
  refine List.map_congr_left fun j hj => ?_
  have hj' := hlt j hj
  have hjn : j < n := by rw [← hc.fl]; exact hj'
  show maInd P (maRowOf cx cf j) = _
  have hjx : j < cx.length := by rw [hc.xl]; exact hjn
  rw [(maRowOf_length hc hjn).2, List.getD_eq_getElem _ _ (by rw [List.length_zip]; omega : j < (cx.zip cf).length), List.getElem_zip,
    List.getD_eq_getElem _ _ hjx, List.getD_eq_getElem _ _ hj']

theorem maPick_good {v : MaEnv K σ} {ker nf : Nat} (hker : 0 < ker) {off : Fl K} {l T : List (List (Fl K) × List (Fl K))} (hd : ∀ p ∈ l, p.2.length = nf)
    (h : MaPick v ker nf off l T) : T.length = ker ∧ (∀ p ∈ T, p ∈ l) ∧
      ∀ i < min nf ker, ∃ p ∈ T, ∃ a, p.2[i]? = some a ∧ ∀ r ∈ l, ∀ b, r.2[i]? = some b → a ≤ b := by
  obtain ⟨q, hq, rfl⟩ := h
  have hg := maGood_of hker (fun f hf => by obtain ⟨p, hp, rfl⟩ := List.mem_map.mp hf; exact hd p hp) hq
  have hlt : ∀ j ∈ q, j < l.length := fun j hj => by have := hg.lt j hj; rwa [List.length_map] at this
  refine ⟨by rw [List.length_map, hg.len], fun p hp => ?_, fun i hi => ?_⟩
  · obtain ⟨j, hj, rfl⟩ := List.mem_map.mp hp
    rw [List.getD_eq_getElem _ _ (hlt j hj)]
    exact List.getElem_mem _
  · obtain ⟨j, hj, a, h1, h2⟩ := hg.best i hi
    refine ⟨_, List.mem_map_of_mem hj, a, ?_, fun r hr b hb => h2 _ (List.mem_map_of_mem hr) b hb⟩
    rw [List.getD_eq_getElem _ _ (hg.lt j hj), List.getElem_map] at h1
    rw [List.getD_eq_getElem _ _ (hlt j hj)]
    exact h1

/-- C121. For each objective, as long as there are as many places as objectives, an individual with the best value found so far is in the archive, and
all of the archive was found. -/
theorem C121_best {v : MaEnv K σ} {ker nf : Nat} (hker : 0 < ker) {ps : List (List (List (Fl K) × List (Fl K)))} {T : List (List (Fl K) × List (Fl K))}
    {log : List (List (Fl K))} (h : MaArchives v ker nf ps T log) (hd : ∀ p ∈ ps.flatten, p.2.length = nf) :
    T.length = ker ∧ (∀ p ∈ T, p ∈ ps.flatten) ∧ ∀ i < min nf ker, ∃ p ∈ T, ∃ a, p.2[i]? = some a ∧ ∀ r ∈ ps.flatten, ∀ b, r.2[i]? = some b → a ≤ b := by
  induction h with
  | first g T z fit hp hf hz =>
    simp only [List.flatten_cons, List.flatten_nil, List.append_nil] at hd ⊢
    exact maPick_good hker hd hp
  | next ps T log h g T' z hp hz ih =>
    simp only [List.flatten_append, List.flatten_cons, List.flatten_nil, List.append_nil] at hd ⊢
    obtain ⟨i1, i2, i3⟩ := ih (fun p hp => hd p (List.mem_append_left _ hp))
    have hsub : ∀ p ∈ T ++ g, p ∈ ps.flatten ++ g := by
      intro p hp
      rcases List.mem_append.mp hp with h | h
      · exact List.mem_append_left _ (i2 p h)
      · exact List.mem_append_right _ h
    obtain ⟨g1, g2, g3⟩ := maPick_good hker (fun p hp => hd p (hsub p hp)) hp
    refine ⟨g1, fun p hp => hsub p (g2 p hp), fun i hi => ?_⟩
    obtain ⟨p, hp, a, ha, hb⟩ := g3 i hi
    refine ⟨p, hp, a, ha, fun r hr b hrb => ?_⟩
    rcases List.mem_append.mp hr with h | h
    · obtain ⟨p', hp', a', ha', hb'⟩ := i3 i hi
      exact (hb p' (List.mem_append_left _ hp') a' ha').trans (hb' r h b hrb)
    · exact hb r (List.mem_append_right _ h) b hrb

/-- the individuals that no other dominates -/
def MaFree (l : List (List (Fl K) × List (Fl K))) (p : List (Fl K) × List (Fl K)) : Prop := ∀ r ∈ l, ¬ Dominates r.2 p.2

open Classical in
/-- how many there are -/
noncomputable def maFree (l : List (List (Fl K) × List (Fl K))) : Nat := (l.filter (fun p => decide (MaFree l p))).length

omit [Field K] in
open Classical in
theorem maFree_front {l : List (List (Fl K) × List (Fl K))} {f0 : List Nat} {t : List (List Nat)} (hL : IsLayering (l.map Prod.snd) (f0 :: t)) :
    f0.length = maFree l := by
  have hnd : (f0 :: t).flatten.Nodup := hL.partition.nodup_iff.mpr List.nodup_range
  rw [List.flatten_cons] at hnd
  have hf0 := (List.nodup_append.mp hnd).1
  have hfirst : ∀ i, i ∈ f0 ↔ i < (l.map Prod.snd).length ∧ ∀ j, ¬ DomIdx (l.map Prod.snd) j i := fun i => hL.first (by simp) i
  have hper : f0.Perm ((List.range l.length).filter (fun j => decide (MaFree l (l.getD j ([], []))))) := by
    refine (List.perm_ext_iff_of_nodup hf0 (List.nodup_range.filter _)).mpr fun j => ?_
    rw [hfirst, List.mem_filter, List.mem_range, List.length_map, decide_eq_true_eq]
    refine and_congr_right fun hj => ?_
    unfold MaFree DomIdx
    rw [List.getD_eq_getElem _ _ hj]
    constructor
    · intro h r hr hd
      obtain ⟨k, hk, rfl⟩ := List.getElem_of_mem hr
      exact h k ⟨by rw [List.length_map]; exact hk, by rw [List.length_map]; exact hj, by rw [List.getElem_map, List.getElem_map]; exact hd⟩
    · rintro h k ⟨hk, hj', hd⟩
      rw [List.length_map] at hk
      rw [List.getElem_map, List.getElem_map] at hd
      exact h _ (List.getElem_mem hk) hd
  rw [hper.length_eq, maFree]
  conv_rhs => rw [← getD_range_map l ([], [])]
  rw [List.filter_map, List.length_map]
  congr 1
  refine List.filter_congr fun j _ => ?_
  simp only [Function.comp]
  rw [getD_range_map]

theorem maPick_free {v : MaEnv K σ} {ker nf : Nat} (hker : 0 < ker) {off : Fl K} {l T : List (List (Fl K) × List (Fl K))} (hd : ∀ p ∈ l, p.2.length = nf)
    (h : MaPick v ker nf off l T) (hn : maFree l < ker) : T.Subperm l ∧ ∀ p ∈ l, MaFree l p → p ∈ T := by
  obtain ⟨q, hq, rfl⟩ := h
  have hg := maGood_of hker (fun f hf => by obtain ⟨p, hp, rfl⟩ := List.mem_map.mp hf; exact hd p hp) hq
  have hlt : ∀ j ∈ q, j < l.length := fun j hj => by have := hg.lt j hj; rwa [List.length_map] at this
  obtain ⟨f0, t, us, hL, hus, hle, h⟩ := hq
  have h0 := maFree_front hL
  rcases h with ⟨hlt0, rfl⟩ | ⟨hge, _⟩
  swap
  · omega
  refine ⟨?_, fun p hp hfree => ?_⟩
  · have hper : us.flatten.Perm ((f0 :: t).take us.length).flatten := by
      exact (List.Perm.flatten_congr (hus.imp fun _ _ h => h.perm.symm)).symm
    have hsubl : ((f0 :: t).take us.length).flatten.Sublist (f0 :: t).flatten := (List.take_sublist _ _).flatten
    have hnd : us.flatten.Nodup := by
      rw [hper.nodup_iff]
      exact List.Nodup.sublist hsubl (hL.partition.nodup_iff.mpr List.nodup_range)
    have hnd2 : (us.flatten.take ker).Nodup := List.Nodup.sublist (List.take_sublist _ _) hnd
    have hsp : (us.flatten.take ker).Subperm (List.range l.length) :=
      hnd2.subperm fun j hj => List.mem_range.mpr (hlt j hj)
    obtain ⟨w, hw1, hw2⟩ := hsp
    have : ((us.flatten.take ker).map (fun j => l.getD j ([], []))).Subperm ((List.range l.length).map (fun j => l.getD j ([], []))) :=
      ⟨_, hw1.map _, hw2.map _⟩
    rwa [getD_range_map] at this
  · obtain ⟨j, hj, rfl⟩ := List.getElem_of_mem hp
    refine List.mem_map.mpr ⟨j, ?_, by rw [List.getD_eq_getElem _ _ hj]⟩
    have hfirst : j ∈ f0 := by
      refine (hL.first (by simp) j).mpr ⟨by rw [List.length_map]; exact hj, fun k hk => ?_⟩
      obtain ⟨hk1, hj1, hdm⟩ := hk
      rw [List.length_map] at hk1
      rw [List.getElem_map, List.getElem_map] at hdm
      exact hfree _ (List.getElem_mem hk1) hdm
    have husne : us ≠ [] := by
      rintro rfl
      simp at hle
      omega
    obtain ⟨u0, us', rfl⟩ := List.exists_cons_of_ne_nil husne
    have hu0 : u0.Perm f0 := by
      rw [List.length_cons, List.take_succ_cons] at hus
      cases hus with
      | cons h _ => exact h.perm
    rw [List.flatten_cons, List.take_append]
    refine List.mem_append_left _ ?_
    rw [List.take_of_length_le (by rw [hu0.length_eq]; omega)]
    exact hu0.mem_iff.mpr hfirst

omit [Field K] in
/-- what dominates is dominated by something that is not -/
theorem maFree_above {l : List (List (Fl K) × List (Fl K))} {p : List (Fl K) × List (Fl K)} (hp : p ∈ l) :
    ∃ r ∈ l, MaFree l r ∧ (r = p ∨ Dominates r.2 p.2) := by
  let R : Fin l.length → Fin l.length → Prop := fun i j => Dominates l[i].2 l[j].2
  have ht : IsTrans (Fin l.length) R := ⟨fun _ _ _ h1 h2 => MO.dominates_trans h1 h2⟩
  have hi : Std.Irrefl R := ⟨fun _ h => MO.dominates_irrefl _ h⟩
  have hwf : WellFounded R := Finite.wellFounded_of_trans_of_irrefl R
  obtain ⟨j, hj, rfl⟩ := List.getElem_of_mem hp
  have : ∀ i : Fin l.length, ∃ r ∈ l, MaFree l r ∧ (r = l[i] ∨ Dominates r.2 l[i].2) := by
    intro i
    induction i using hwf.induction with
    | _ i ih =>
      by_cases h : MaFree l l[i]
      · exact ⟨_, List.getElem_mem _, h, Or.inl rfl⟩
      · unfold MaFree at h
        push Not at h
        obtain ⟨r, hr, hd⟩ := h
        obtain ⟨k, hk, rfl⟩ := List.getElem_of_mem hr
        obtain ⟨r', hr', hf, h'⟩ := ih ⟨k, hk⟩ hd
        refine ⟨r', hr', hf, Or.inr ?_⟩
        rcases h' with rfl | h'
        · exact hd
        · exact MO.dominates_trans h' hd
  exact this ⟨j, hj⟩

open Classical in
/-- C121. As long as there was always more room than individuals that no other dominates, all those of them that are still not dominated are in the
archive. -/
theorem C121_front {v : MaEnv K σ} {ker nf : Nat} (hker : 0 < ker) {ps : List (List (List (Fl K) × List (Fl K)))} {T : List (List (Fl K) × List (Fl K))}
    {log : List (List (Fl K))} (h : MaArchives v ker nf ps T log) (hd : ∀ p ∈ ps.flatten, p.2.length = nf) (hn : ∀ k ≤ ps.length, maFree (ps.take k).flatten < ker) :
    ∀ p ∈ ps.flatten, MaFree ps.flatten p → p ∈ T := by
  have key : T.Subperm ps.flatten ∧ ∀ p ∈ ps.flatten, MaFree ps.flatten p → p ∈ T := by
    induction h with
    | first g T z fit hp hf hz =>
      have := hn 1 (by simp)
      simp only [List.flatten_cons, List.flatten_nil, List.append_nil, List.take_succ_cons, List.take_zero] at hd this ⊢
      exact maPick_free hker hd hp this
    | next ps T log h g T' z hp hz ih =>
      have hlast := hn (ps.length + 1) (by simp)
      rw [List.take_of_length_le (by simp)] at hlast
      have hn' : ∀ k ≤ ps.length, maFree (ps.take k).flatten < ker := by
        intro k hk
        have := hn k (by simp; omega)
        rwa [List.take_append_of_le_length hk] at this
      simp only [List.flatten_append, List.flatten_cons, List.flatten_nil, List.append_nil] at hd hlast ⊢
      have hdU : ∀ p ∈ ps.flatten, p.2.length = nf := fun p hp => hd p (List.mem_append_left _ hp)
      obtain ⟨i1, i2⟩ := ih hdU hn'
      have hsub : (T ++ g).Subperm (ps.flatten ++ g) := i1.append (List.Subperm.refl g)
      have hdc : ∀ p ∈ T ++ g, p.2.length = nf := fun p hp => hd p (hsub.subset hp)
      have hfree : ∀ p ∈ T ++ g, MaFree (T ++ g) p ↔ MaFree (ps.flatten ++ g) p := by
        intro p _
        constructor
        · intro h r hr hdom
          rcases List.mem_append.mp hr with hr | hr
          · obtain ⟨r', hr', hf', h'⟩ := maFree_above hr
            have := h r' (List.mem_append_left _ (i2 r' hr' hf'))
            rcases h' with rfl | h'
            · exact this hdom
            · exact this (MO.dominates_trans h' hdom)
          · exact h r (List.mem_append_right _ hr) hdom
        · exact fun h r hr => h r (hsub.subset hr)
      have hcount : maFree (T ++ g) ≤ maFree (ps.flatten ++ g) := by
        unfold maFree
        have e : (T ++ g).filter (fun p => decide (MaFree (T ++ g) p)) = (T ++ g).filter (fun p => decide (MaFree (ps.flatten ++ g) p)) :=
          List.filter_congr fun p hp => by simp only [hfree p hp]
        rw [e]
        exact (hsub.filter _).length_le
      obtain ⟨g1, g2⟩ := maPick_free hker hdc hp (by omega)
      refine ⟨g1.trans hsub, fun p hp hf => ?_⟩
      have hpc : p ∈ T ++ g := by
        rcases List.mem_append.mp hp with h | h
        · exact List.mem_append_left _ (i2 p h fun r hr => hf r (List.mem_append_left _ hr))
        · exact List.mem_append_right _ h
      exact g2 p hpc ((hfree p hpc).mpr hf)
  exact key.2

end Verif.Props
