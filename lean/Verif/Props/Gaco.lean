import Verif.Proof.Gaco
import Verif.Props.Cmaes
import Verif.Props.Cstrs

/-!
# C113 to C118: a run of `gaco`
-/

set_option autoImplicit false

namespace Verif.Props

open Verif Run Prob Pop Alg

variable {K σ : Type} [Field K] [LinearOrder K]

/-! ### C113: what is evaluated, and what is in the population afterwards -/

/-- C113. What the constructor requires. Neither `impstop`, `evalstop` and the oracle are checked, although the documentation says so, nor is NaN
refused. -/
theorem C113_ctor (gen ker : Nat) (q oracle acc : Fl K) (threshold nGenMark impstop evalstop : Nat) (focus : Fl K) (memory : Bool) :
    (gaCtor gen ker q oracle acc threshold nGenMark impstop evalstop focus memory =
        .ok (⟨gen, ker, acc, threshold, nGenMark, impstop, evalstop, focus, memory⟩, ⟨oracle, q, 0, [], 1, 1, 1⟩) ∨
      gaCtor gen ker q oracle acc threshold nGenMark impstop evalstop focus memory = .throws .invalidArgument) ∧
    (gaCtor gen ker q oracle acc threshold nGenMark impstop evalstop focus memory = .throws .invalidArgument ↔
      acc < .fin 0 ∨ focus < .fin 0 ∨ q < .fin 0 ∨ ker < 2 ∨ gen ≠ 0 ∧ (threshold = 0 ∨ memory = false ∧ gen < threshold)) := by
  have key : ∀ a : Fl K, Fl.lt a (.fin 0) = true ↔ a < .fin 0 := by
    intro a
    cases a <;> simp [Fl.lt, Fl.lt_def, Fl.cls]
  unfold gaCtor
  simp only [key]
  split
  · rename_i h; simp [h]
  rename_i h1
  split
  · rename_i h; simp [h]
  rename_i h2
  split
  · rename_i h
    refine ⟨Or.inr rfl, fun _ => ?_, fun _ => rfl⟩
    refine Or.inr (Or.inr (Or.inr (Or.inr ⟨h.2.1, ?_⟩)))
    rcases h.1 with h' | h'
    · exact Or.inl (by omega)
    · exact Or.inr ⟨h.2.2, h'⟩
  rename_i h3
  split
  · rename_i h
    exact ⟨Or.inr rfl, fun _ => Or.inr (Or.inr (Or.inr (Or.inr ⟨h.2.1, Or.inl (by omega)⟩))), fun _ => rfl⟩
  rename_i h4
  split
  · rename_i h; simp [h]
  rename_i h5
  split
  · rename_i h; simp [h]
  rename_i h6
  refine ⟨Or.inl rfl, (fun h => by cases h), ?_⟩
  rintro (h | h | h | h | ⟨h, h' | ⟨h', h''⟩⟩)
  · exact absurd h h1
  · exact absurd h h2
  · exact absurd h h5
  · exact absurd h h6
  · cases memory
    · exact absurd ⟨Or.inl (by omega), h, rfl⟩ h3
    · exact absurd ⟨by omega, h, rfl⟩ h4
  · exact absurd ⟨Or.inr h'', h, h'⟩ h3

/-- C113. `evolve` throws before anything is evaluated if the problem is stochastic or has several objectives, or if there are fewer individuals
than the archive has rows. -/
theorem C113_throws (v : GaEnv K σ) (P : AProb K) (A : Gaco K) (bfe : Option (Batch K)) (fuel : Nat) (m : GaMem K) (s : St K σ) (hn : s.pop.id.length ≠ 0)
    (h : P.info.stochastic = true ∨ A.gens ≠ 0 ∧ (P.info.nobj ≠ 1 ∨ s.pop.id.length < A.ker ∨ s.pop.id.length < 2)) :
    gaEvolve v P A bfe fuel m s = (.throws .invalidArgument, s) := by
  unfold gaEvolve
  show Run.bind _ _ _ = _
  unfold Run.bind
  dsimp only [Run.get]
  rw [if_neg hn]
  split
  · rfl
  rename_i h1
  rcases h with h | ⟨h0, h⟩
  · exact absurd h h1
  rw [if_neg h0]
  split
  · rfl
  split
  · rfl
  split
  · rfl
  · exfalso
    rename_i h2 h3 h4
    rcases h with h | h | h
    · exact h4 h
    · exact h3 h
    · exact h2 h

/-- C113. Nothing is evaluated and the population stays as it is if it is empty or there are no generations; with memory the call is counted all the
same. -/
theorem C113_no_generations (v : GaEnv K σ) (P : AProb K) (A : Gaco K) (bfe : Option (Batch K)) (fuel : Nat) (m : GaMem K) (s : St K σ)
    (h : s.pop.id.length = 0 ∨ P.info.stochastic = false ∧ A.gens = 0) :
    gaEvolve v P A bfe fuel m s = (.ok (if A.memory then { m with counter := (m.counter + 1) % 2 ^ 32 } else m), s) := by
  unfold gaEvolve
  show Run.bind _ _ _ = _
  unfold Run.bind
  dsimp only [Run.get]
  rcases h with h | ⟨h1, h2⟩
  · rw [if_pos h]; rfl
  · by_cases h : s.pop.id.length = 0
    · rw [if_pos h]; rfl
    · rw [if_neg h, h1, if_neg (by simp), if_pos h2]; rfl

/-- What a run does. -/
structure GaDone (P : AProb K) (A : Gaco K) (s s' : St K σ) : Prop where
  /-- the individuals keep their IDs, the population is sound -/
  inv : Inv P.info s'.pop
  id : s'.pop.id = s.pop.id
  /-- the generations `G`, each of as many evaluations as there are individuals -/
  gens : ∃ G : List (List (List (Fl K) × List (Fl K))), G.length ≤ A.gens ∧ (∀ g ∈ G, g.length = s.pop.id.length) ∧ s'.evs = s.evs ++ asCalls G.flatten ∧
    (∀ p ∈ G.flatten, (∃ h, P.fit h p.1 = .ok p.2) ∧ GaBox P p.1) ∧
    /- with memory or if the run stopped early, the individuals are those of the last generation -/
    ((A.memory = true ∨ G.length < A.gens) ∧ individuals s'.pop = G.getLastD (individuals s.pop) ∨
    /- otherwise the first ones come from the archive, that is, from the individuals before or from an earlier generation -/
      A.memory = false ∧ G.length = A.gens ∧ ∃ top, top.length = A.ker ∧ (∀ p ∈ top, p ∈ individuals s.pop ++ G.dropLast.flatten) ∧
        individuals s'.pop = top ++ (G.getLastD []).drop A.ker)

theorem gaStored_arch (A : Gaco K) (m : GaMem K) (arch : List (List (Fl K))) (h : A.memory = true) : (gaStored A m arch).arch = arch := by
  unfold gaStored; rw [if_pos h]

theorem gaStored_counter (A : Gaco K) (m : GaMem K) (arch : List (List (Fl K))) : (gaStored A m arch).counter = m.counter := by
  unfold gaStored; split <;> rfl

/-- the archive in memory is the one of the run -/
theorem gaFull_arch {v : GaEnv K σ} {P : AProb K} {A : Gaco K} {tol : List (Fl K)} {n : Nat} {a b : GaState K} (hk : A.ker ≤ n) (h : GaFull v P A tol n a b) :
    (A.memory = true → b.m.arch = b.arch) ∧ gaStart A b.m b.arch = b.arch ∧ b.m.counter = a.m.counter ∧
    ∀ r ∈ b.arch, gaInd P r ∈ a.xs.zip a.fs ∨ ¬ (a.g = 0 ∧ a.m.counter < 2) ∧ ∃ r' ∈ gaStart A a.m a.arch, gaInd P r = gaInd P r' := by
  obtain ⟨hpa, hpb, haa, -, ps, sl, m1, arch1, sig, check, hw⟩ := h
  obtain ⟨h1, h2⟩ := gaArchived_arch hpa hw.sorted.perm hk haa hw.archived
  obtain ⟨h3, h4, h5, h6⟩ := gaOracled_arch h1 hw.oracle
  obtain ⟨q, hq⟩ := gaPhero_mem v A (a.g + 1) (gaStored A m1 arch1) a.cum
  have hmem : A.memory = true → b.m.arch = b.arch := by
    refine h6 ?_
    intro hm
    rw [hq]
    exact gaStored_arch A m1 arch1 hm
  refine ⟨hmem, ?_, ?_, ?_⟩
  · unfold gaStart
    split
    · rename_i hc; exact hmem hc.1
    · rfl
  · rw [h5, hq]
    dsimp only
    rw [gaStored_counter]
    cases hw.archived <;> rfl
  · intro r hr
    obtain ⟨r', hr', he⟩ : ∃ r' ∈ arch1, gaInd P r = gaInd P r' := by
      have : gaInd P r ∈ b.arch.map (gaInd P) := List.mem_map_of_mem hr
      rw [h4] at this
      obtain ⟨r', h, e⟩ := List.mem_map.mp this
      exact ⟨r', h, e.symm⟩
    have new : r' ∈ (sl.take A.ker).map (gaRowOf a.xs a.fs ps) → gaInd P r ∈ a.xs.zip a.fs := by
      intro h
      obtain ⟨j, hj, rfl⟩ := List.mem_map.mp h
      rw [he]
      exact (gaRowOf_ind hpa ps (List.mem_range.mp (hw.sorted.perm.mem_iff.mp (List.mem_of_mem_take hj)))).2
    by_cases hc : a.g = 0 ∧ a.m.counter < 2
    · left
      apply new
      have hA := hw.archived
      cases hA with
      | fill _ => exact hr'
      | merge h _ _ => exact absurd ⟨by omega, hc.2⟩ h
      | keep h _ => exact absurd ⟨by omega, hc.2⟩ h
    · rcases h2 r' hr' with h | h
      · exact Or.inl (new h)
      · exact Or.inr ⟨hc, r', h, he⟩

/-- The generations of a run, and where the rows of the archive come from. -/
theorem gaSteps_gens {v : GaEnv K σ} {P : AProb K} {A : Gaco K} {tol : List (Fl K)} {n : Nat} (hk : A.ker ≤ n) {a : GaState K} (ha : a.g = 0) :
    ∀ (k : Nat) (b : GaState K), Steps (GaFull v P A tol n) k a b → b.g = k ∧ b.m.counter = a.m.counter ∧
      (0 < k → (A.memory = true → b.m.arch = b.arch) ∧ gaStart A b.m b.arch = b.arch) ∧
      ∃ G : List (List (List (Fl K) × List (Fl K))), G.length = k ∧ (∀ g ∈ G, g.length = n) ∧ b.evs = a.evs ++ asCalls G.flatten ∧
        b.xs.zip b.fs = G.getLastD (a.xs.zip a.fs) ∧
        (0 < k → ∀ r ∈ b.arch, gaInd P r ∈ a.xs.zip a.fs ++ G.dropLast.flatten ∨ 2 ≤ a.m.counter ∧ gaInd P r ∈ (gaStart A a.m a.arch).map (gaInd P)) := by
  intro k
  induction k with
  | zero =>
    intro b h
    cases h
    exact ⟨ha, rfl, fun h => absurd h (by omega), [], rfl, by simp, by simp [asCalls], rfl, fun h => absurd h (by omega)⟩
  | succ k ih =>
    intro c h
    cases h with
    | snoc h hF =>
      rename_i b
      obtain ⟨hg, hcnt, hst, G, hl, hn, he, hpop, harch⟩ := ih b h
      obtain ⟨m1, m2, m3, m4⟩ := gaFull_arch hk hF
      obtain ⟨hpa, hpb, -, -, ps, sl, mm, arch1, sig, check, hw⟩ := hF
      refine ⟨by rw [hw.g, hg], by rw [m3, hcnt], fun _ => ⟨m1, m2⟩, G ++ [c.xs.zip c.fs], by simp [hl], ?_, ?_, ?_, ?_⟩
      · intro g hg
        rcases List.mem_append.mp hg with h | h
        · exact hn g h
        · rw [List.mem_singleton.mp h, List.length_zip, hpb.xl, hpb.fl, Nat.min_self]
      · rw [hw.ev, he, List.append_assoc]
        congr 1
        simp [asCalls, List.flatten_append]
      · simp
      · intro _ r hr
        rw [List.dropLast_concat]
        have pop : ∀ p ∈ b.xs.zip b.fs, p ∈ a.xs.zip a.fs ++ G.flatten := by
          intro p hp
          rw [hpop] at hp
          rcases G.eq_nil_or_concat with rfl | ⟨G', g, rfl⟩
          · simpa using hp
          · simp only [List.concat_eq_append] at hp ⊢
            simp at hp
            simp [hp]
        rcases m4 r hr with h | ⟨h1, r', h2, h3⟩
        · exact Or.inl (pop _ h)
        · rw [h3]
          by_cases hk0 : 0 < k
          · rw [(hst hk0).2] at h2
            rcases harch hk0 r' h2 with h | h
            · left
              rcases List.mem_append.mp h with h | h
              · exact List.mem_append_left _ h
              · refine List.mem_append_right _ ?_
                obtain ⟨g, hg, hp⟩ := List.mem_flatten.mp h
                exact List.mem_flatten.mpr ⟨g, List.dropLast_subset _ hg, hp⟩
            · exact Or.inr h
          · have hk0' : k = 0 := by omega
            subst hk0'
            cases h
            refine Or.inr ⟨?_, List.mem_map_of_mem h2⟩
            by_contra hc
            exact h1 ⟨ha, by omega⟩

section
variable [IsStrictOrderedRing K]

/-- C113. A run of `gaco` evaluates, in every generation, as many new points as there are individuals, at most `gens` times. Each component of a
point is within the bounds unless it is NaN; integer variables get integers. At the end of a run without memory that was not stopped by one of the
criteria, the first `ker` individuals are those of the archive, found before the last generation; the others, and all of them otherwise, are those of
the last generation, whatever their fitness. If the run fails, then because the user's function or the batch evaluator did. The behaviour is defined for
all parameters (also NaN) and all fitnesses, if the members are as the constructor or a run left them. -/
theorem C113_evolve_partial (v : GaEnv K σ) (rep : K → Prop) (hg : v.g.Lawful rep) (hsrt : ValidSort v.srt) (hrd : RoundOk v.rd) (P : AProb K)
    (hP : SaneBounds P.lb P.ub P.nix) (hnx : P.info.nx = P.lb.length) (hst : P.info.stochastic = false) (hnobj : P.info.nobj = 1) (A : Gaco K) (hker : 2 ≤ A.ker)
    (hgens : A.gens + 1 < 2 ^ 32) (hgens0 : A.gens ≠ 0) (bfe : Option (Batch K)) (hok : ∀ b, bfe = some b → BatchOk P b)
    (s : St K σ) (hi : Inv P.info s.pop) (hch : s.pop.chX ≠ []) (hk : A.ker ≤ s.pop.id.length) (m : GaMem K) (hm : GaMemOk P A m)
    (hcnt : A.memory = false → m.counter = 0) (fuel : Nat) (hfuel : A.gens < fuel) :
    wp (gaEvolve v P A bfe fuel m) (fun m' s' => GaDone P A s s' ∧ GaMemOk P A m' ∧ (A.memory = false → m'.counter = 0)) (CmFailed (GaBox P) P bfe s) s := by
  refine (ga_run hg hsrt hrd hP hnx hst hnobj hker hgens hgens0 hok hi hch hk hm hfuel).mono ?_ (fun _ _ h => h)
  rintro m' s' ⟨⟨new, ht⟩, b, rfl, hcase⟩
  have hc0 : (gaInit P A m).m.counter = (gaCount A m).counter := rfl
  have hcn : A.memory = false → (gaCount A m).counter = 0 := by
    intro h
    unfold gaCount
    rw [if_neg (by rw [h]; simp)]
    exact hcnt h
  have user : ∀ G : List (List (List (Fl K) × List (Fl K))), s'.evs = s.evs ++ asCalls G.flatten →
      ∀ p ∈ G.flatten, (∃ h, P.fit h p.1 = .ok p.2) ∧ GaBox P p.1 := by
    intro G he p hp
    have hnew : new = asCalls G.flatten := by
      have := ht.evs
      rw [he] at this
      exact (List.append_cancel_left this).symm
    have hmem : (p.1, Except.ok p.2) ∈ new := by rw [hnew]; exact List.mem_map_of_mem hp
    obtain ⟨h, e⟩ := ht.user _ hmem
    exact ⟨⟨h, e.symm⟩, ht.box _ hmem⟩
  rcases hcase with ⟨s1, hmid, hend⟩ | ⟨k, hk1, hk2, b1, hmid, hstop, rfl⟩
  · obtain ⟨g1, g2, g3, G, hl, hn, he, hpop, harch⟩ := gaSteps_gens hk rfl _ _ hmid.run
    have hpos : 0 < A.gens := by omega
    obtain ⟨g4, -⟩ := g3 hpos
    have hev : s'.evs = s.evs ++ asCalls G.flatten := by rw [hend.evs]; exact he
    refine ⟨⟨ht.inv, ht.id, G, by omega, hn, hev, user G hev, ?_⟩, ?_, ?_⟩
    · by_cases hmem : A.memory = true
      · refine Or.inl ⟨Or.inl hmem, ?_⟩
        rw [← show individuals s1.pop = G.getLastD (individuals s.pop) from hpop]
        unfold individuals
        rw [hend.x, hend.f, if_pos hmem, if_pos hmem]
      · have hmf : A.memory = false := by simpa using hmem
        have har := hmid.real hpos
        refine Or.inr ⟨hmf, hl, b.arch.map (gaInd P), by rw [List.length_map, har.1], ?_, ?_⟩
        · intro p hp
          obtain ⟨r, hr, rfl⟩ := List.mem_map.mp hp
          rcases harch hpos r hr with h | ⟨h, -⟩
          · exact h
          · change 2 ≤ (gaCount A m).counter at h
            rw [hcn hmf] at h
            omega
        · have hne : G ≠ [] := by intro h; rw [h] at hl; simp at hl; omega
          have hlast : individuals s1.pop = G.getLastD [] := by
            rw [show individuals s1.pop = _ from hpop]
            rcases G.eq_nil_or_concat with rfl | ⟨G', g, rfl⟩
            · exact absurd rfl hne
            · simp
          rw [← hlast]
          unfold individuals
          rw [hend.x, hend.f, if_neg hmem, if_neg hmem, List.zip_append (by simp), ← show (s1.pop.x.zip s1.pop.f).drop A.ker = (s1.pop.x.drop A.ker).zip (s1.pop.f.drop A.ker) from List.drop_zipWith]
          congr 1
          apply List.ext_getElem
          · simp
          · intro i h1 h2
            simp
    · intro hmem _
      right
      rw [show b.m.arch = b.arch from g4 hmem]
      exact hmid.real hpos
    · intro hmf
      exact g2.trans (hcn hmf)
  · obtain ⟨g1, g2, g3, G, hl, hn, he, hpop, harch⟩ := gaSteps_gens hk rfl _ _ hmid.run
    refine ⟨⟨ht.inv, ht.id, G, by omega, hn, he, user G he, Or.inl ⟨Or.inr (by omega), hpop⟩⟩, fun _ _ => Or.inl hstop, fun hmf => g2.trans (hcn hmf)⟩

/-! In exact arithmetic no point has a NaN. -/

omit [Field K] [LinearOrder K] [IsStrictOrderedRing K] in
theorem mem_gaPairs {ker c k : Nat} : (c, k) ∈ gaPairs ker ↔ c < k ∧ k < ker := by
  unfold gaPairs
  simp only [List.mem_flatMap, List.mem_range, List.mem_map, List.mem_range'_1, Prod.mk.injEq]
  constructor
  · rintro ⟨c', h1, k', h2, rfl, rfl⟩; omega
  · rintro ⟨h1, h2⟩; exact ⟨c, by omega, k, by omega, rfl, rfl⟩

/-- The smallest and the largest distance between two of the values. -/
structure GaSpreadIs (col : List K) (lo hi : K) : Prop where
  below : ∀ (i j : Nat) (a b : K), i < j → col[i]? = some a → col[j]? = some b → lo ≤ |a - b| ∧ |a - b| ≤ hi
  least : ∃ (i j : Nat) (a b : K), i < j ∧ col[i]? = some a ∧ col[j]? = some b ∧ lo = |a - b|
  most : ∃ (i j : Nat) (a b : K), i < j ∧ col[i]? = some a ∧ col[j]? = some b ∧ hi = |a - b|

theorem gaAbs_exact (a b : K) : Fl.abs ((Fl.exact K).sub (.fin a) (.fin b)) = .fin |a - b| := by
  rw [ex_sub]
  show Fl.fin (if a - b < 0 then -(a - b) else a - b) = _
  split
  · rename_i h; rw [abs_of_neg h]
  · rename_i h; rw [abs_of_nonneg (not_lt.mp h)]

theorem gaSpread_exact {ker : Nat} (hk : 2 ≤ ker) {col : List K} (hc : col.length = ker) :
    ∃ lo hi, gaSpread (Fl.exact K) ker (col.map .fin) = .ok (.fin lo, .fin hi) ∧ GaSpreadIs col lo hi := by
  have get : ∀ i (h : i < col.length), Outcome.get (col.map Fl.fin) i = .ok (Fl.fin col[i]) := by
    intro i h
    rw [Outcome.get_of_lt (by simpa using h), List.getElem_map]
  have g0 : 0 < col.length := by omega
  have g1 : 1 < col.length := by omega
  unfold gaSpread
  rw [get 0 g0, Outcome.bind_ok, get 1 g1, Outcome.bind_ok, gaAbs_exact]
  obtain ⟨r, hr, h1, h2, h3, lo, hi, h4⟩ := Outcome.foldlM_sat (f := fun (d : Fl K × Fl K) (p : Nat × Nat) => (do
      let a ← Outcome.get (col.map Fl.fin) p.1
      let b ← Outcome.get (col.map Fl.fin) p.2
      let t := Fl.abs ((Fl.exact K).sub a b)
      pure (if Fl.lt t d.1 then t else d.1, if Fl.gt t d.2 then t else d.2)))
    (fun pre (d : Fl K × Fl K) => (∀ p ∈ pre, ∀ a b : K, col[p.1]? = some a → col[p.2]? = some b → d.1 ≤ .fin |a - b| ∧ .fin |a - b| ≤ d.2) ∧
      (∃ (i j : Nat) (a b : K), i < j ∧ col[i]? = some a ∧ col[j]? = some b ∧ d.1 = .fin |a - b|) ∧
      (∃ (i j : Nat) (a b : K), i < j ∧ col[i]? = some a ∧ col[j]? = some b ∧ d.2 = .fin |a - b|) ∧ ∃ lo hi : K, d = (.fin lo, .fin hi))
    (gaPairs ker) [] (.fin |col[0] - col[1]|, .fin |col[0] - col[1]|)
    ⟨by simp, ⟨0, 1, _, _, by omega, List.getElem?_eq_getElem g0, List.getElem?_eq_getElem g1, rfl⟩,
      ⟨0, 1, _, _, by omega, List.getElem?_eq_getElem g0, List.getElem?_eq_getElem g1, rfl⟩, _, _, rfl⟩ (by
      rintro pre p suf d hsplit ⟨i1, i2, i3, lo, hi, rfl⟩
      have hp : p ∈ gaPairs ker := by rw [hsplit]; simp
      obtain ⟨hp1, hp2⟩ := mem_gaPairs.mp (show (p.1, p.2) ∈ gaPairs ker from hp)
      have l1 : p.1 < col.length := by omega
      have l2 : p.2 < col.length := by omega
      refine ⟨_, by rw [get _ l1, Outcome.bind_ok, get _ l2, Outcome.bind_ok]; dsimp only; rw [gaAbs_exact]; rfl, ?_, ?_, ?_, ?_⟩
      · intro q hq a b ha hb
        dsimp only
        have key : ∀ x : K, (lo ≤ x ∧ x ≤ hi ∨ x = |col[p.1] - col[p.2]|) →
            (if Fl.lt (.fin |col[p.1] - col[p.2]|) (.fin lo) = true then Fl.fin |col[p.1] - col[p.2]| else .fin lo) ≤ .fin x ∧
            Fl.fin x ≤ (if Fl.gt (.fin |col[p.1] - col[p.2]|) (.fin hi) = true then Fl.fin |col[p.1] - col[p.2]| else .fin hi) := by
          intro x hx
          simp only [Fl.lt, Fl.gt, decide_eq_true_eq]
          constructor
          · split
            · rename_i h
              rw [Fl.fin_le_fin]
              rcases hx with hx | rfl
              · exact h.le.trans hx.1
              · exact le_rfl
            · rename_i h
              rw [Fl.fin_le_fin]
              rcases hx with hx | rfl
              · exact hx.1
              · exact not_lt.mp h
          · split
            · rename_i h
              rw [Fl.fin_le_fin]
              rcases hx with hx | rfl
              · exact hx.2.trans h.le
              · exact le_rfl
            · rename_i h
              rw [Fl.fin_le_fin]
              rcases hx with hx | rfl
              · exact hx.2
              · exact not_lt.mp h
        rcases List.mem_append.mp hq with hq | hq
        · have := i1 q hq a b ha hb
          exact key _ (Or.inl ⟨Fl.fin_le_fin.mp this.1, Fl.fin_le_fin.mp this.2⟩)
        · rw [List.mem_singleton.mp hq] at ha hb
          rw [List.getElem?_eq_getElem l1] at ha
          rw [List.getElem?_eq_getElem l2] at hb
          rw [← Option.some.inj ha, ← Option.some.inj hb]
          exact key _ (Or.inr rfl)
      · dsimp only
        split
        · exact ⟨_, _, _, _, hp1, List.getElem?_eq_getElem l1, List.getElem?_eq_getElem l2, rfl⟩
        · exact i2
      · dsimp only
        split
        · exact ⟨_, _, _, _, hp1, List.getElem?_eq_getElem l1, List.getElem?_eq_getElem l2, rfl⟩
        · exact i3
      · refine ⟨if Fl.lt (.fin |col[p.1] - col[p.2]|) (.fin lo) = true then |col[p.1] - col[p.2]| else lo,
          if Fl.gt (.fin |col[p.1] - col[p.2]|) (.fin hi) = true then |col[p.1] - col[p.2]| else hi, ?_⟩
        rw [apply_ite Fl.fin, apply_ite Fl.fin])
  subst h4
  refine ⟨lo, hi, hr, ?_, ?_, ?_⟩
  · intro i j a b hij ha hb
    have hj : j < ker := by
      have := (List.getElem?_eq_some_iff.mp hb).1
      omega
    have := h1 (i, j) (by simpa using mem_gaPairs.mpr ⟨hij, hj⟩) a b ha hb
    exact ⟨Fl.fin_le_fin.mp this.1, Fl.fin_le_fin.mp this.2⟩
  · obtain ⟨i, j, a, b, h, ha, hb, e⟩ := h2
    exact ⟨i, j, a, b, h, ha, hb, Fl.fin.inj e⟩
  · obtain ⟨i, j, a, b, h, ha, hb, e⟩ := h3
    exact ⟨i, j, a, b, h, ha, hb, Fl.fin.inj e⟩

/-- What is needed of the functions: exact arithmetic, a square root and an exponential. -/
structure GaFns (v : GaEnv K σ) (R X : K → K) : Prop where
  op : v.op = Fl.exact K
  int : ∀ z : ℤ, v.g.ofInt z = z
  sqrt : ∀ a : K, 0 ≤ a → v.sq (.fin a) = .fin (R a)
  sqrt0 : R 0 = 0
  sqrtPos : ∀ a : K, 0 < a → 0 < R a
  sqrtGe : ∀ a : K, 1 ≤ a → 1 ≤ R a
  sqrtLe : ∀ a : K, 0 ≤ a → a ≤ 1 → R a ≤ 1
  exp : ∀ a : K, v.ex (.fin a) = .fin (X a)
  expPos : ∀ a : K, 0 < X a
  expMono : StrictMono X
  pi : 0 < v.pi

/-- The members are numbers: the chromosomes, those in the archive, the mark and the focus. -/
structure GaNum (P : AProb K) (A : Gaco K) (a : GaState K) : Prop where
  xs : ∀ x ∈ a.xs, AllFin x
  arch : ∀ r ∈ gaStart A a.m a.arch, AllFin (gaInd P r).1
  mark : 1 ≤ a.m.mark ∧ a.m.mark ≤ max 1 A.nGenMark

omit [IsStrictOrderedRing K] [LinearOrder K] in
theorem gaCol_fin {P : AProb K} {ker : Nat} {arch : List (List (Fl K))} (ha : GaArch P ker arch) (hf : ∀ r ∈ arch, AllFin (gaInd P r).1) {h : Nat}
    (hh : h < P.info.nx) : ∃ col : List K, gaCol arch h = col.map .fin ∧ col.length = ker ∧
      ∀ (i : Nat) (a : K), col[i]? = some a ↔ ∃ r, arch[i]? = some r ∧ (gaInd P r).1[h]? = some (.fin a) := by
  have ent : ∀ r ∈ arch, ∃ a : K, r.getD (1 + h) .nan = .fin a ∧ (gaInd P r).1[h]? = some (.fin a) := by
    intro r hr
    have hl := ha.2 r hr
    have hl' : h < (gaInd P r).1.length := by unfold gaInd; simp; omega
    obtain ⟨a, e⟩ := hf r hr _ (List.getElem_mem hl')
    refine ⟨a, ?_, by rw [List.getElem?_eq_getElem hl', e]⟩
    rw [← e, List.getD_eq_getElem _ _ (by omega)]
    simp [gaInd, Nat.add_comm]
  choose! g hg1 hg2 using ent
  refine ⟨arch.map g, ?_, by rw [List.length_map, ha.1], ?_⟩
  · unfold gaCol
    rw [List.map_map]
    exact List.map_congr_left fun r hr => hg1 r hr
  · intro i a
    constructor
    · intro h
      obtain ⟨r, hr, rfl⟩ : ∃ r, arch[i]? = some r ∧ g r = a := by simpa using h
      exact ⟨r, hr, hg2 r (List.mem_of_getElem? hr)⟩
    · rintro ⟨r, hr, e⟩
      have := hg2 r (List.mem_of_getElem? hr)
      rw [this] at e
      rw [List.getElem?_map, hr]
      simpa using e

theorem gaDev_exact {v : GaEnv K σ} {R X : K → K} (hF : GaFns v R X) {P : AProb K} {A : Gaco K} {f : K} (hf : A.focus = .fin f) {m : GaMem K}
    (hm : 1 ≤ m.mark) (gen h : Nat) (hh : h < P.info.nx) (lo hi dmin dmax : K) :
    gaDev v P A gen m h (.fin lo) (.fin hi) (.fin dmin) (.fin dmax) = .fin (
      if f ≠ 0 ∧ (if A.memory then m.counter else gen) ≠ 0 ∧ (hi - lo) / f < (dmax - dmin) / (if A.memory then m.counter else gen : Nat) ∨
          f ≠ 0 ∧ (if A.memory then m.counter else gen) = 0 ∧ 0 < dmax - dmin then (hi - lo) / f
      else if h < P.info.nx - P.nix then (dmax - dmin) / m.mark
      else max (max ((dmax - dmin) / m.mark) (1 / m.mark)) (1 - 1 / R P.nix)) := by
  have hmk : (m.mark : K) ≠ 0 := by exact_mod_cast (by omega : m.mark ≠ 0)
  unfold gaDev
  simp only [hF.op, hf, hF.int, ex_sub, Int.cast_natCast]
  have big : ∀ n : Nat, ((!Fl.eq (Fl.fin f) (.fin 0)) && Fl.gt ((Fl.exact K).div (.fin (dmax - dmin)) (.fin (n : K)))
      ((Fl.exact K).div (.fin (hi - lo)) (.fin f))) = true ↔
      (f ≠ 0 ∧ n ≠ 0 ∧ (hi - lo) / f < (dmax - dmin) / (n : K) ∨ f ≠ 0 ∧ n = 0 ∧ 0 < dmax - dmin) := by
    intro n
    by_cases hf0 : f = 0
    · simp [hf0, Fl.eq]
    · have e1 : (!Fl.eq (Fl.fin f) (.fin 0)) = true := by simp [Fl.eq, hf0]
      rw [e1, Bool.true_and, ex_div _ hf0]
      by_cases hn : n = 0
      · subst hn
        simp only [Fl.exact, Fl.div, Nat.cast_zero, if_true, hf0, ne_eq, not_false_eq_true, true_and, not_true_eq_false, false_and, and_false, false_or]
        by_cases h1 : dmax - dmin = 0
        · simp [h1, Fl.gt, Fl.lt]
        · rw [if_neg h1]
          split
          · rename_i h2; simp [Fl.gt, Fl.lt, h2]
          · rename_i h2; simp [Fl.gt, Fl.lt, h2]
      · rw [ex_div _ (by exact_mod_cast hn)]
        simp [Fl.gt, Fl.lt, hf0, hn]
  have wf : f ≠ 0 → (Fl.exact K).div (.fin (hi - lo)) (.fin f) = .fin ((hi - lo) / f) := fun h => ex_div _ h
  have last : (if h < P.info.nx - P.nix then (Fl.exact K).div (.fin (dmax - dmin)) (.fin (m.mark : K)) else
      Fl.stdMax (Fl.stdMax ((Fl.exact K).div (.fin (dmax - dmin)) (.fin (m.mark : K))) ((Fl.exact K).div (.fin 1) (.fin (m.mark : K))))
        ((Fl.exact K).sub (.fin 1) ((Fl.exact K).div (.fin 1) (v.sq (.fin (P.nix : K)))))) =
      Fl.fin (if h < P.info.nx - P.nix then (dmax - dmin) / m.mark else max (max ((dmax - dmin) / m.mark) (1 / m.mark)) (1 - 1 / R P.nix)) := by
    rw [ex_div _ hmk, ex_div _ hmk]
    split
    · rfl
    · have hn : 0 < P.nix := by omega
      have hn' : (0 : K) < P.nix := by exact_mod_cast hn
      rw [hF.sqrt _ hn'.le, ex_div _ (hF.sqrtPos _ hn').ne', ex_sub, ex_max, ex_max]
  rcases hmem : A.memory with _ | _
  · simp only [Bool.not_false, Bool.and_true, Bool.and_false, Bool.false_eq_true, if_false]
    split
    · rename_i h1
      rw [big gen] at h1
      rw [if_pos h1, wf (by rcases h1 with h | h <;> exact h.1)]
    · rename_i h1
      rw [big gen] at h1
      rw [if_neg h1]
      exact last
  · simp only [Bool.not_true, Bool.and_true, Bool.and_false, Bool.false_eq_true, if_false, if_true]
    split
    · rename_i h1
      rw [big m.counter] at h1
      rw [if_pos h1, wf (by rcases h1 with h | h <;> exact h.1)]
    · rename_i h1
      rw [big m.counter] at h1
      rw [if_neg h1]
      exact last

omit [Field K] [IsStrictOrderedRing K] in
theorem gaClamp_fin (a b c : K) : ∃ d, gaClamp (.fin a) (.fin b) (.fin c) = Fl.fin d := by
  unfold gaClamp
  dsimp only
  split <;> split <;> exact ⟨_, rfl⟩

theorem gaFull_num {v : GaEnv K σ} {R X : K → K} (hF : GaFns v R X) (hrd : RoundOk v.rd) {P : AProb K} (hP : FiniteBox P) {A : Gaco K} {f : K} (hf : A.focus = .fin f)
    (hmk : A.nGenMark + 1 < 2 ^ 32) {tol : List (Fl K)} {n : Nat} (hk2 : 2 ≤ A.ker) (hk : A.ker ≤ n) {a b : GaState K} (h : GaFull v P A tol n a b) (ha : GaNum P A a) :
    GaNum P A b := by
  obtain ⟨-, hst, -, hor⟩ := gaFull_arch hk h
  obtain ⟨hpa, hpb, haa, -, ps, sl, m1, arch1, sig, check, hw⟩ := h
  obtain ⟨h1, h2⟩ := gaArchived_arch hpa hw.sorted.perm hk haa hw.archived
  obtain ⟨q, hq⟩ := gaPhero_mem v A (a.g + 1) (gaStored A m1 arch1) a.cum
  have har1 : ∀ r ∈ arch1, AllFin (gaInd P r).1 := by
    intro r hr
    rcases h2 r hr with h | h
    · obtain ⟨j, hj, rfl⟩ := List.mem_map.mp h
      exact ha.xs _ (List.of_mem_zip (gaRowOf_ind hpa ps (List.mem_range.mp (hw.sorted.perm.mem_iff.mp (List.mem_of_mem_take hj)))).2).1
    · exact ha.arch r h
  have hmark1 : 1 ≤ m1.mark ∧ m1.mark ≤ max 1 A.nGenMark := by
    have step : 1 ≤ gaMark A a.m ∧ gaMark A a.m ≤ max 1 A.nGenMark := by
      have := ha.mark
      unfold gaMark incU
      dsimp only
      have e : (a.m.mark + 1) % 2 ^ 32 = a.m.mark + 1 := Nat.mod_eq_of_lt (by omega)
      rw [e]
      split <;> split <;> omega
    have hA := hw.archived
    cases hA with
    | fill _ => exact ha.mark
    | merge _ _ _ => exact step
    | keep _ _ => exact step
  have hmark2 : (gaPhero v A (a.g + 1) (gaStored A m1 arch1) a.cum).1.mark = m1.mark := by
    rw [hq]
    unfold gaStored
    split <;> rfl
  have hsigf : ∀ (h : Nat) (x : Fl K), sig[h]? = some x → ∃ c : K, x = .fin c := by
    obtain ⟨sig', e1, e2, e3⟩ := gaSigma_ok (v := v) hP.bounds hP.nx hk2 h1 (a.g + 1) (gaPhero v A (a.g + 1) (gaStored A m1 arch1) a.cum).1
    rw [hw.sigma] at e1
    obtain rfl := Outcome.ok.inj e1
    intro h x hx
    have hh : h < P.info.nx := by rw [← e2]; exact (List.getElem?_eq_some_iff.mp hx).1
    obtain ⟨lo, hi, d, g1, g2, g3, rfl⟩ := e3 h x hx
    obtain ⟨lo', rfl⟩ := hP.finL lo (List.mem_of_getElem? g1)
    obtain ⟨hi', rfl⟩ := hP.finU hi (List.mem_of_getElem? g2)
    obtain ⟨col, c1, c2, -⟩ := gaCol_fin h1 har1 hh
    obtain ⟨dl, dh, d1, -⟩ := gaSpread_exact hk2 c2
    rw [c1, hF.op, d1] at g3
    obtain rfl := Outcome.ok.inj g3
    exact ⟨_, gaDev_exact hF hf (by rw [hmark2]; exact hmark1.1) _ _ hh _ _ _ _⟩
  refine ⟨?_, ?_, ?_⟩
  · intro x hx w hwx
    obtain ⟨j, hj, rfl⟩ := List.getElem_of_mem hwx
    obtain ⟨u, k, row, -, -, -, hrow, hxl, hgene⟩ := hw.ants x hx
    obtain ⟨c, s, lo, hi, g1, g2, g3, g4, zs, z, -, -, -, hval⟩ := hgene j x[j] (List.getElem?_eq_getElem hj)
    obtain ⟨lo', rfl⟩ := hP.finL lo (List.mem_of_getElem? g3)
    obtain ⟨hi', rfl⟩ := hP.finU hi (List.mem_of_getElem? g4)
    obtain ⟨s', rfl⟩ := hsigf j s g2
    have hrm := List.mem_of_getElem? hrow
    have hrl := h1.2 row hrm
    obtain ⟨c', rfl⟩ : ∃ c' : K, c = .fin c' := by
      refine har1 row hrm c ?_
      refine List.mem_of_getElem? (i := j) ?_
      unfold gaInd
      dsimp only
      rw [List.getElem?_take, if_pos (by omega), List.getElem?_drop]
      exact g1
    rw [hF.op, ex_mul, ex_add] at hval
    obtain ⟨d, hd⟩ := gaClamp_fin lo' hi' (c' + s' * z)
    rw [hd] at hval
    dsimp only at hval
    split at hval
    · obtain ⟨y, hy, -⟩ := hrd.near d
      exact ⟨_, hval.trans hy⟩
    · exact ⟨_, hval⟩
  · rw [hst]
    intro r hr
    rcases hor r hr with h | ⟨-, r', h3, h4⟩
    · exact ha.xs _ (List.of_mem_zip h).1
    · rw [h4]; exact ha.arch r' h3
  · have : b.m.mark = m1.mark := by
      have hO := hw.oracle
      rw [← hmark2]
      generalize gaPhero v A (a.g + 1) (gaStored A m1 arch1) a.cum = ph at hO
      generalize b.m = bm at hO ⊢
      generalize b.arch = ba at hO
      cases hO with
      | same _ => rfl
      | update _ => unfold gaStored; split <;> rfl
    rw [this]
    exact hmark1

theorem gaSteps_num {v : GaEnv K σ} {R X : K → K} (hF : GaFns v R X) (hrd : RoundOk v.rd) {P : AProb K} (hP : FiniteBox P) {A : Gaco K} {f : K} (hf : A.focus = .fin f)
    (hmk : A.nGenMark + 1 < 2 ^ 32) {tol : List (Fl K)} {n : Nat} (hk2 : 2 ≤ A.ker) (hk : A.ker ≤ n) {a : GaState K} (ha : GaNum P A a) :
    ∀ (k : Nat) (b : GaState K), Steps (GaFull v P A tol n) k a b → GaNum P A b ∧ ∃ new, b.evs = a.evs ++ new ∧ ∀ p ∈ new, AllFin p.1 := by
  intro k
  induction k with
  | zero => intro b h; cases h; exact ⟨ha, [], by simp, by simp⟩
  | succ k ih =>
    intro c h
    cases h with
    | snoc h hS =>
      rename_i b
      obtain ⟨hb, new, he, hn⟩ := ih b h
      have hc := gaFull_num hF hrd hP hf hmk hk2 hk hS hb
      obtain ⟨-, -, -, -, ps, sl, m1, arch1, sig, check, hw⟩ := hS
      refine ⟨hc, new ++ asCalls (c.xs.zip c.fs), by rw [hw.ev, he, List.append_assoc], ?_⟩
      intro p hp
      rcases List.mem_append.mp hp with hp | hp
      · exact hn p hp
      · obtain ⟨q, hq, rfl⟩ := List.mem_map.mp hp
        exact hc.xs _ (List.of_mem_zip hq).1

/-- The members are as the constructor or a run left them, without NaN. -/
structure GaMemNum (P : AProb K) (A : Gaco K) (m : GaMem K) : Prop where
  arch : A.memory = true → ∀ r ∈ m.arch, AllFin (gaInd P r).1
  mark : 1 ≤ m.mark ∧ m.mark ≤ max 1 A.nGenMark

omit [LinearOrder K] [IsStrictOrderedRing K] in
theorem gaInit_num {P : AProb K} {A : Gaco K} {m : GaMem K} (hm : GaMemNum P A m) {s : St K σ} (hx : ∀ x ∈ s.pop.x, AllFin x) :
    GaNum P A (gaSt (gaInit P A m) 0 s) := by
  have e1 : (gaCount A m).arch = m.arch := by unfold gaCount; split <;> rfl
  have e2 : (gaCount A m).mark = m.mark := by unfold gaCount; split <;> rfl
  refine ⟨hx, ?_, ?_⟩
  · show ∀ r ∈ gaStart A (gaCount A m) _, _
    unfold gaStart
    rw [e1]
    split
    · rename_i hc; exact hm.arch hc.1
    · intro r hr w hw
      have hr' := List.eq_of_mem_replicate hr
      have : w ∈ r := by
        unfold gaInd at hw
        exact List.mem_of_mem_drop (List.mem_of_mem_take hw)
      rw [hr'] at this
      exact ⟨1, List.eq_of_mem_replicate this⟩
  · show 1 ≤ (gaCount A m).mark ∧ (gaCount A m).mark ≤ _
    rw [e2]
    exact hm.mark

omit [IsStrictOrderedRing K] in
theorem inBox_of_ga {P : AProb K} (hnx : P.info.nx = P.lb.length) {x : List (Fl K)} (h : GaBox P x) (hf : AllFin x) : InBox P.lb P.ub P.nix x := by
  refine ⟨h.1.trans hnx, fun i l u w h1 h2 h3 => ?_⟩
  obtain ⟨a, rfl⟩ := hf w (List.mem_of_getElem? h3)
  obtain ⟨g1, g2, g3⟩ := h.2 i l u _ h1 h2 h3 (by simp)
  exact ⟨g1, g2, fun hi => by obtain ⟨z, hz⟩ := g3 (by rw [hnx]; exact hi) a rfl; exact ⟨z, by rw [hz]⟩⟩

/-- C113. In exact arithmetic, if the bounds, the chromosomes and the focus are numbers, every point evaluated is within the bounds and has
integers where they are required. -/
theorem C113_box (v : GaEnv K σ) (R X : K → K) (hF : GaFns v R X) (rep : K → Prop) (hg : v.g.Lawful rep) (hsrt : ValidSort v.srt) (hrd : RoundOk v.rd) (P : AProb K)
    (hP : FiniteBox P) (hst : P.info.stochastic = false) (hnobj : P.info.nobj = 1) (A : Gaco K) (hker : 2 ≤ A.ker)
    (hgens : A.gens + 1 < 2 ^ 32) (hgens0 : A.gens ≠ 0) (hmk : A.nGenMark + 1 < 2 ^ 32) (f : K) (hf : A.focus = .fin f)
    (bfe : Option (Batch K)) (hok : ∀ b, bfe = some b → BatchOk P b)
    (s : St K σ) (hi : Inv P.info s.pop) (hx : ∀ x ∈ s.pop.x, AllFin x) (hch : s.pop.chX ≠ []) (hk : A.ker ≤ s.pop.id.length) (m : GaMem K) (hm : GaMemOk P A m)
    (hmn : GaMemNum P A m) (fuel : Nat) (hfuel : A.gens < fuel) :
    wp (gaEvolve v P A bfe fuel m) (fun m' s' => (∃ new, s'.evs = s.evs ++ new ∧ ∀ p ∈ new, InBox P.lb P.ub P.nix p.1) ∧ GaMemNum P A m')
      (CmFailed (GaBox P) P bfe s) s := by
  refine (ga_run hg hsrt hrd hP.bounds hP.nx hst hnobj hker hgens hgens0 hok hi hch hk hm hfuel).mono ?_ (fun _ _ h => h)
  rintro m' s' ⟨⟨new, ht⟩, b, rfl, hcase⟩
  have key : ∀ (k : Nat) (b1 : GaVars K) (s1 : St K σ), GaMid v P A (gaInit P A m) s k b1 s1 → s1.evs = s'.evs →
      (∃ new, s'.evs = s.evs ++ new ∧ ∀ p ∈ new, InBox P.lb P.ub P.nix p.1) ∧ GaMemNum P A b1.m := by
    intro k b1 s1 hmid he
    obtain ⟨hn, new', e1, e2⟩ := gaSteps_num hF hrd hP hf hmk hker hk (gaInit_num hmn hx) _ _ hmid.run
    obtain ⟨-, -, g3, -⟩ := gaSteps_gens hk rfl _ _ hmid.run
    change s1.evs = s.evs ++ new' at e1
    have hnew : new = new' := by
      have := ht.evs
      rw [← he, e1] at this
      exact (List.append_cancel_left this).symm
    subst hnew
    refine ⟨⟨new, ht.evs, fun p hp => inBox_of_ga hP.nx (ht.box p hp) (e2 p hp)⟩, ?_, hn.mark⟩
    intro hmem
    rcases Nat.eq_zero_or_pos k with rfl | hk0
    · have hrun := hmid.run
      generalize hgs : gaSt b1 0 s1 = y at hrun
      cases hrun
      have : b1.m = (gaInit P A m).m := congrArg GaState.m hgs
      rw [this]
      have e1 : (gaCount A m).arch = m.arch := by unfold gaCount; split <;> rfl
      show ∀ r ∈ (gaCount A m).arch, _
      rw [e1]
      exact hmn.arch hmem
    · obtain ⟨q1, q2⟩ := g3 hk0
      rw [show b1.m.arch = b1.arch from q1 hmem]
      have := hn.arch
      rw [q2] at this
      exact this
  rcases hcase with ⟨s1, hmid, hend⟩ | ⟨k, hk1, hk2, b1, hmid, hstop, rfl⟩
  · exact key _ _ _ hmid hend.evs.symm
  · exact key _ b1 _ hmid rfl

/-! ### C114: the penalties, and the best individual -/

/-- The penalty of a point with objective `f` and violation `r`, for the oracle `o`. -/
def gaPenK (R : K → K) (o f r : K) : K :=
  if f ≤ o then (if r = 0 then f - o else r)
  else if r < (f - o) / 3 then (1 - 1 / (3 * R 3)) * (f - o)
  else if r ≤ f - o then (f - o) - (f - o - r) / (2 * R ((f - o) / r))
  else r - R ((f - o) / r) / 2 * (r - (f - o))

theorem gaPen_exact {v : GaEnv K σ} {R X : K → K} (hF : GaFns v R X) (o f r : K) (hr : 0 ≤ r) :
    gaPen v (.fin f) (.fin o) (.fin r) = some (.fin (gaPenK R o f r)) := by
  have h3 : 0 < R 3 := hF.sqrtPos 3 (by norm_num)
  unfold gaPen gaPenK
  dsimp only
  rw [hF.op, gaAbs_exact]
  by_cases hfo : f ≤ o
  · have hgt : Fl.gt (Fl.fin f) (.fin o) = false := by simpa [Fl.gt, Fl.lt] using hfo
    have hal : gaAlpha v (.fin f) (.fin o) (.fin |f - o|) (.fin r) = .fin 0 := by
      unfold gaAlpha
      simp [hgt]
    rw [hgt, Bool.false_or, hal, if_pos hfo]
    by_cases h0 : r = 0
    · subst h0
      have e1 : Fl.gt (Fl.fin (0 : K)) (.fin 0) = false := by simp [Fl.gt, Fl.lt]
      have e2 : (Fl.le (Fl.fin f) (.fin o) && Fl.eq (Fl.fin (0 : K)) (.fin 0)) = true := by
        rw [Bool.and_eq_true, Fl.le_iff (by simp) (by simp)]
        exact ⟨Fl.fin_le_fin.mpr hfo, by simp [Fl.eq]⟩
      rw [e1, if_neg (by simp), if_pos e2, if_pos rfl, abs_of_nonpos (by linarith)]
      simp [Fl.neg]
    · have hr0 : 0 < r := lt_of_le_of_ne hr (Ne.symm h0)
      have e1 : Fl.gt (Fl.fin r) (.fin 0) = true := by simpa [Fl.gt, Fl.lt] using hr0
      rw [e1, if_pos rfl, if_neg h0, ex_sub, ex_mul, ex_mul, ex_add]
      congr 2
      ring
  · have hof : o < f := not_le.mp hfo
    have hd : 0 < f - o := by linarith
    have hgt : Fl.gt (Fl.fin f) (.fin o) = true := by simpa [Fl.gt, Fl.lt] using hof
    rw [hgt, Bool.true_or, if_pos rfl, if_neg hfo, abs_of_pos hd]
    have fin : ∀ a : K, (Fl.exact K).add ((Fl.exact K).mul (.fin a) (.fin (f - o))) ((Fl.exact K).mul ((Fl.exact K).sub (.fin 1) (.fin a)) (.fin r)) =
        .fin (a * (f - o) + (1 - a) * r) := by
      intro a
      rw [ex_sub, ex_mul, ex_mul, ex_add]
    unfold gaAlpha
    dsimp only
    rw [hF.op, hgt]
    simp only [Bool.true_and]
    rw [ex_div _ (by norm_num : (3 : K) ≠ 0)]
    have lt3 : Fl.lt (Fl.fin r) (.fin ((f - o) / 3)) = true ↔ r < (f - o) / 3 := by simp [Fl.lt]
    by_cases hc1 : r < (f - o) / 3
    · rw [if_pos (lt3.mpr hc1), if_pos hc1, hF.sqrt 3 (by norm_num), ex_mul, ex_sub, ex_mul, ex_div _ (by positivity), ex_sub, ex_sub, ex_div _ (by linarith), fin]
      congr 2
      have : f - o - r ≠ 0 := by linarith
      field_simp
      ring
    · have ge3 : Fl.ge (Fl.fin r) (.fin ((f - o) / 3)) = true := by
        show Fl.le _ _ = true
        rw [Fl.le_iff (by simp) (by simp)]
        exact Fl.fin_le_fin.mpr (not_lt.mp hc1)
      have hr0 : 0 < r := by
        have := not_lt.mp hc1
        have : 0 < (f - o) / 3 := by positivity
        linarith
      have hq : 0 < (f - o) / r := by positivity
      rw [if_neg (by rw [lt3]; exact hc1), if_neg hc1, ge3, Bool.true_and]
      by_cases hc2 : r ≤ f - o
      · have e1 : Fl.le (Fl.fin r) (.fin (f - o)) = true := by
          rw [Fl.le_iff (by simp) (by simp)]
          exact Fl.fin_le_fin.mpr hc2
        have hq0 := hF.sqrtPos _ hq
        rw [if_pos e1, if_pos hc2, ex_div _ hr0.ne', hF.sqrt _ hq.le, ex_mul, ex_div _ (by positivity), ex_sub, fin]
        congr 2
        field_simp
        ring
      · have e1 : ¬ Fl.le (Fl.fin r) (.fin (f - o)) = true := by
          rw [Fl.le_iff (by simp) (by simp), Fl.fin_le_fin]
          exact hc2
        have e2 : Fl.gt (Fl.fin r) (.fin (f - o)) = true := by simpa [Fl.gt, Fl.lt] using not_le.mp hc2
        rw [if_neg e1, if_neg hc2, if_pos e2, ex_div _ hr0.ne', hF.sqrt _ hq.le, ex_mul, fin]
        congr 2
        ring

/-- C114. The penalty is negative exactly for a point without violation and an objective below the oracle, and zero exactly if the objective is equal to
the oracle; without violation a point with a smaller objective has a smaller penalty. -/
theorem C114_penalty {v : GaEnv K σ} {R X : K → K} (hF : GaFns v R X) (o f r : K) (hr : 0 ≤ r) :
    (gaPenK R o f r < 0 ↔ r = 0 ∧ f < o) ∧ (gaPenK R o f r = 0 ↔ r = 0 ∧ f = o) ∧
    ∀ g : K, gaPenK R o f 0 < gaPenK R o g 0 ↔ f < g := by
  have h3 : 1 ≤ R 3 := hF.sqrtGe 3 (by norm_num)
  have hc : 0 < 1 - 1 / (3 * R 3) := by
    have : 1 / (3 * R 3) < 1 := by rw [div_lt_one (by positivity)]; linarith
    linarith
  have big : ∀ f r : K, 0 ≤ r → o < f → 0 < gaPenK R o f r := by
    intro f r hr hof
    have hd : 0 < f - o := by linarith
    unfold gaPenK
    rw [if_neg (not_le.mpr hof)]
    split
    · exact mul_pos hc hd
    rename_i h1
    have hr0 : 0 < r := by
      have := not_lt.mp h1
      have : 0 < (f - o) / 3 := by positivity
      linarith
    split
    · rename_i h2
      have := hF.sqrtGe ((f - o) / r) (by rw [le_div_iff₀ hr0]; linarith)
      have : (f - o - r) / (2 * R ((f - o) / r)) ≤ f - o - r := div_le_self (by linarith) (by linarith)
      linarith
    · rename_i h2
      have h2' := not_le.mp h2
      have h4 := hF.sqrtLe ((f - o) / r) (by positivity) (by rw [div_le_one hr0]; exact h2'.le)
      have : R ((f - o) / r) / 2 * (r - (f - o)) ≤ 1 / 2 * (r - (f - o)) := by
        apply mul_le_mul_of_nonneg_right _ (by linarith)
        linarith
      linarith
  refine ⟨?_, ?_, ?_⟩
  · by_cases hof : f ≤ o
    · unfold gaPenK
      rw [if_pos hof]
      split
      · rename_i h; simp [h]
      · rename_i h; simp [h, hr]
    · have := big f r hr (not_le.mp hof)
      constructor
      · intro h; linarith
      · rintro ⟨_, h⟩; exact absurd h.le hof
  · by_cases hof : f ≤ o
    · unfold gaPenK
      rw [if_pos hof]
      split
      · rename_i h; simp [h, sub_eq_zero]
      · rename_i h; simp [h]
    · have := big f r hr (not_le.mp hof)
      constructor
      · intro h; linarith
      · rintro ⟨_, h⟩; exact absurd h.le hof
  · intro g
    have val : ∀ f : K, gaPenK R o f 0 = if f ≤ o then f - o else (1 - 1 / (3 * R 3)) * (f - o) := by
      intro f
      unfold gaPenK
      split
      · rw [if_pos rfl]
      · rename_i h
        rw [if_pos (by have := not_le.mp h; have : 0 < f - o := by linarith
                       positivity)]
    rw [val f, val g]
    split <;> split
    · simp
    · rename_i h1 h2
      have h2' := not_le.mp h2
      have := mul_pos hc (show 0 < g - o by linarith)
      constructor <;> intro h <;> linarith
    · rename_i h1 h2
      have h1' := not_le.mp h1
      have := mul_pos hc (show 0 < f - o by linarith)
      constructor <;> intro h <;> linarith
    · rw [mul_lt_mul_iff_right₀ hc]
      simp

omit [Field K] [LinearOrder K] [IsStrictOrderedRing K] in
theorem allFin_map {l : List (Fl K)} (h : AllFin l) : ∃ l' : List K, l = l'.map .fin := by
  induction l with
  | nil => exact ⟨[], rfl⟩
  | cons a l ih =>
    obtain ⟨x, rfl⟩ := h a (by simp)
    obtain ⟨l', rfl⟩ := ih (fun b hb => h b (by simp [hb]))
    exact ⟨x :: l', rfl⟩

theorem gaLoop_exact (isEq : Bool) : ∀ (cs ts : List K), cs.length ≤ ts.length → ∀ (n : Nat) (l : K), ∃ n' S, 0 ≤ S ∧
    Con.testLoop isEq (cs.map Fl.fin) (ts.map Fl.fin) n (.fin l) = .ok (n', .fin (l + S)) ∧
    (S = 0 ↔ ∀ (i : Nat) (c t : K), cs[i]? = some c → ts[i]? = some t → (if isEq then |c| else c) ≤ t) := by
  intro cs
  induction cs with
  | nil => intro ts _ n l; exact ⟨n, 0, le_rfl, by simp [Con.testLoop], by simp⟩
  | cons c cs ih =>
    intro ts h n l
    cases ts with
    | nil => simp at h
    | cons t ts =>
      have hval : Fl.stdMax (Fl.sub (if isEq then Fl.abs (Fl.fin c) else .fin c) (.fin t)) (.fin 0) = .fin (max ((if isEq then |c| else c) - t) 0) := by
        have e : (if isEq = true then Fl.abs (Fl.fin c) else Fl.fin c) = .fin (if isEq then |c| else c) := by
          cases isEq
          · rfl
          · have := gaAbs_exact c 0
            rw [ex_sub, sub_zero] at this
            exact this
        rw [e, show Fl.sub (Fl.fin (if isEq = true then |c| else c)) (Fl.fin t) = .fin ((if isEq = true then |c| else c) - t) from ex_sub _ _, ex_max]
      generalize hw : max ((if isEq then |c| else c) - t) 0 = w at hval
      obtain ⟨n', S, h1, h2, h3⟩ := ih ts (by simpa using h) (if Fl.le (Fl.fin w) (.fin 0) then n + 1 else n) (l + w * w)
      refine ⟨n', w * w + S, add_nonneg (mul_self_nonneg w) h1, ?_, ?_⟩
      · rw [List.map_cons, List.map_cons]
        unfold Con.testLoop
        rw [hval]
        dsimp only
        rw [show Fl.add (Fl.fin l) (Fl.mul (Fl.fin w) (Fl.fin w)) = Fl.fin (l + w * w) from rfl, h2, add_assoc]
      · have hw0 : w = 0 ↔ (if isEq then |c| else c) ≤ t := by
          rw [← hw, max_eq_right_iff, sub_nonpos]
        constructor
        · intro he i c' t' hc ht
          have e1 : w * w = 0 := by nlinarith [mul_self_nonneg w]
          have e2 : S = 0 := by nlinarith [mul_self_nonneg w]
          cases i with
          | zero =>
            simp only [List.getElem?_cons_zero, Option.some.injEq] at hc ht
            subst hc ht
            exact hw0.mp (mul_self_eq_zero.mp e1)
          | succ i => exact h3.mp e2 i c' t' (by simpa using hc) (by simpa using ht)
        · intro hall
          rw [h3.mpr (fun i c' t' hc ht => hall (i + 1) c' t' (by simpa using hc) (by simpa using ht)), hw0.mpr (hall 0 c t rfl rfl)]
          ring

/-- The violation: zero exactly if the constraints are met. -/
theorem gaViol_exact {v : GaEnv K σ} {R X : K → K} (hF : GaFns v R X) {P : AProb K} (hnobj : P.info.nobj = 1) {tol f : List (Fl K)} (ht : tol.length = P.info.nc)
    (hf : f.length = P.info.nf) (htf : AllFin tol) (hff : AllFin f) :
    ∃ r, gaViol v P tol f = .ok (.fin r) ∧ 0 ≤ r ∧ (r = 0 ↔ MeetsAll P.info.nec P.info.nc tol f) := by
  have hnf : P.info.nf = 1 + P.info.nec + P.info.nic := by simp only [Info.nf, Info.nc]; omega
  have hnc : P.info.nc = P.info.nec + P.info.nic := rfl
  obtain ⟨T, rfl⟩ := allFin_map htf
  obtain ⟨F, rfl⟩ := allFin_map hff
  rw [List.length_map] at ht hf
  have R0 : ∀ a, 0 ≤ a → 0 ≤ R a := by
    intro a ha
    rcases ha.lt_or_eq with h | rfl
    · exact (hF.sqrtPos a h).le
    · exact hF.sqrt0.ge
  have Rz : ∀ a, 0 ≤ a → (R a = 0 ↔ a = 0) := by
    intro a ha
    rcases ha.lt_or_eq with h | rfl
    · exact ⟨fun h' => absurd h' (hF.sqrtPos a h).ne', fun h' => absurd h' h.ne'⟩
    · exact ⟨fun _ => rfl, fun _ => hF.sqrt0⟩
  obtain ⟨n1, S1, a1, a2, a3⟩ := gaLoop_exact true ((F.drop P.info.nobj).take P.info.nec) T (by
    rw [List.length_take, List.length_drop]; omega) 0 0
  obtain ⟨n2, S2, b1, b2, b3⟩ := gaLoop_exact false (F.drop (P.info.nobj + P.info.nec)) (T.drop P.info.nec) (by
    rw [List.length_drop, List.length_drop]; omega) 0 0
  rw [zero_add] at a2 b2
  have e1 : Con.testCons v.sq true (((F.map Fl.fin).drop P.info.nobj).take P.info.nec) (T.map .fin) = .ok (n1, .fin (R S1)) := by
    unfold Con.testCons
    rw [← List.map_drop, ← List.map_take, a2, Outcome.bind_ok]
    dsimp only
    rw [hF.sqrt _ a1]
    rfl
  have e2 : Con.testCons v.sq false ((F.map Fl.fin).drop (P.info.nobj + P.info.nec)) ((T.map Fl.fin).drop P.info.nec) = .ok (n2, .fin (R S2)) := by
    unfold Con.testCons
    rw [← List.map_drop, ← List.map_drop, b2, Outcome.bind_ok]
    dsimp only
    rw [hF.sqrt _ b1]
    rfl
  have hs : 0 ≤ R S1 * R S1 + R S2 * R S2 := add_nonneg (mul_self_nonneg _) (mul_self_nonneg _)
  refine ⟨R (R S1 * R S1 + R S2 * R S2), ?_, R0 _ hs, ?_⟩
  · unfold gaViol
    rw [e1, Outcome.bind_ok, e2, Outcome.bind_ok]
    dsimp only
    rw [hF.op, ex_mul, ex_mul, ex_add, hF.sqrt _ hs]
    rfl
  · rw [Rz _ hs]
    have split : R S1 * R S1 + R S2 * R S2 = 0 ↔ S1 = 0 ∧ S2 = 0 := by
      rw [← Rz _ a1, ← Rz _ b1]
      constructor
      · intro h
        have h1 := mul_self_nonneg (R S1)
        have h2 := mul_self_nonneg (R S2)
        exact ⟨mul_self_eq_zero.mp (by linarith), mul_self_eq_zero.mp (by linarith)⟩
      · rintro ⟨h1, h2⟩; rw [h1, h2]; ring
    rw [split, a3, b3]
    have absf : ∀ c : K, Fl.abs (Fl.fin c) = .fin |c| := by
      intro c
      have := gaAbs_exact c 0
      rwa [ex_sub, sub_zero] at this
    constructor
    · rintro ⟨h1, h2⟩ j hj
      have hjF : j + 1 < F.length := by omega
      have hjT : j < T.length := by omega
      refine ⟨.fin F[j + 1], .fin T[j], by simp [hjF], by simp [hjT], ?_⟩
      split
      · rename_i hlt
        rw [absf, Fl.le_iff (by simp) (by simp), Fl.fin_le_fin]
        have := h1 j F[j + 1] T[j] (by
          rw [List.getElem?_take, if_pos hlt, List.getElem?_drop, hnobj, Nat.add_comm, List.getElem?_eq_getElem hjF]) (List.getElem?_eq_getElem hjT)
        simpa using this
      · rename_i hlt
        rw [Fl.le_iff (by simp) (by simp), Fl.fin_le_fin]
        have := h2 (j - P.info.nec) F[j + 1] T[j] (by
          rw [List.getElem?_drop, hnobj, show 1 + P.info.nec + (j - P.info.nec) = j + 1 by omega, List.getElem?_eq_getElem hjF]) (by
          rw [List.getElem?_drop, show P.info.nec + (j - P.info.nec) = j by omega, List.getElem?_eq_getElem hjT])
        simpa using this
    · intro hall
      constructor
      · intro i c t hc ht'
        have hi : i < P.info.nec := by
          have := (List.getElem?_eq_some_iff.mp hc).1
          rw [List.length_take] at this
          omega
        rw [List.getElem?_take, if_pos hi, List.getElem?_drop, hnobj, Nat.add_comm] at hc
        obtain ⟨c', t', g1, g2, g3⟩ := hall i (by omega)
        rw [List.getElem?_map, hc] at g1
        rw [List.getElem?_map, ht'] at g2
        simp only [Option.map_some, Option.some.injEq] at g1 g2
        subst g1 g2
        rw [if_pos hi, absf, Fl.le_iff (by simp) (by simp), Fl.fin_le_fin] at g3
        simpa using g3
      · intro i c t hc ht'
        rw [List.getElem?_drop] at hc ht'
        have hi := (List.getElem?_eq_some_iff.mp hc).1
        obtain ⟨c', t', g1, g2, g3⟩ := hall (P.info.nec + i) (by omega)
        rw [List.getElem?_map, show P.info.nec + i + 1 = P.info.nobj + P.info.nec + i by omega, hc] at g1
        rw [List.getElem?_map, ht'] at g2
        simp only [Option.map_some, Option.some.injEq] at g1 g2
        subst g1 g2
        rw [if_neg (by omega), Fl.le_iff (by simp) (by simp), Fl.fin_le_fin] at g3
        simpa using g3

/-- The penalty of a fitness vector: `y` is the objective, `r` the violation. -/
theorem gaPenOf_exact {v : GaEnv K σ} {R X : K → K} (hF : GaFns v R X) {P : AProb K} (hnobj : P.info.nobj = 1) {tol f : List (Fl K)} (ht : tol.length = P.info.nc)
    (hf : f.length = P.info.nf) (htf : AllFin tol) (hff : AllFin f) :
    ∃ y r, f[0]? = some (.fin y) ∧ 0 ≤ r ∧ (r = 0 ↔ MeetsAll P.info.nec P.info.nc tol f) ∧
      (∀ o : K, gaPenOf v P tol (.fin o) f = .fin (gaPenK R o y r)) ∧ ∀ (i : Nat) (row : List (Fl K)), (gaInd P row).2 = f → gaResOf v P tol i row = .fin r := by
  have hnf : P.info.nf = 1 + P.info.nec + P.info.nic := by simp only [Info.nf, Info.nc]; omega
  obtain ⟨r, h1, h2, h3⟩ := gaViol_exact hF hnobj ht hf htf hff
  have h0 : 0 < f.length := by omega
  obtain ⟨y, hy⟩ := hff f[0] (List.getElem_mem h0)
  have hz : P.info.nic = 0 → P.info.nec = 0 → r = 0 := by
    intro a b
    refine h3.mpr ?_
    intro j hj
    exact absurd hj (by simp only [Info.nc]; omega)
  refine ⟨y, r, by rw [List.getElem?_eq_getElem h0, hy], h2, h3, ?_, ?_⟩
  · intro o
    unfold gaPenOf gaPenalty
    by_cases hc : P.info.nic ≠ 0 ∨ P.info.nec ≠ 0
    · rw [if_pos hc, h1, Outcome.bind_ok]
      dsimp only
      rw [Outcome.get_of_lt h0, Outcome.bind_ok, hy, gaPen_exact hF _ _ _ h2]
      rfl
    · rw [if_neg hc, Outcome.pure_eq, Outcome.bind_ok]
      dsimp only
      rw [Outcome.get_of_lt h0, Outcome.bind_ok, hy, gaPen_exact hF _ _ _ le_rfl, hz (by omega) (by omega)]
      rfl
  · intro i row hrow
    unfold gaResOf
    split
    · rename_i hc; rw [hz hc.2.1 hc.2.2]
    · rw [hrow, h1]

omit [Field K] [LinearOrder K] [IsStrictOrderedRing K] in
theorem gaFit_eq {P : AProb K} (hnf : 0 < P.info.nf) (r : List (Fl K)) : gaFit P r = (gaInd P r).2.getD 0 .nan := by
  unfold gaFit gaInd
  dsimp only
  rw [List.getD_eq_getElem?_getD, List.getD_eq_getElem?_getD, List.getElem?_take, if_pos hnf, List.getElem?_drop, Nat.add_zero]

/-- The first row of the archive is the best of the fitness vectors `S`, for the oracle `o`, which was `o0` at first. -/
structure GaTop (v : GaEnv K σ) (P : AProb K) (tol : List (Fl K)) (o0 o : K) (arch : List (List (Fl K))) (S : List (List (Fl K))) : Prop where
  rows : ∀ r ∈ arch, (gaInd P r).2 ∈ S ∧ gaHead r = gaPenOf v P tol (.fin o) (gaInd P r).2
  first : ∀ r ∈ arch, gaHead (arch.getD 0 []) ≤ gaHead r
  best : ∀ f ∈ S, gaHead (arch.getD 0 []) ≤ gaPenOf v P tol (.fin o) f
  src : o = o0 ∨ o < o0 ∧ ∃ f ∈ S, MeetsAll P.info.nec P.info.nc tol f ∧ f[0]? = some (.fin o)

/-- A fitness vector `f` compared to those in `S`: without constraints its objective is the smallest; with constraints, it is feasible and the best of the feasible
ones if one of these has an objective below `o0`. -/
def GaBest (P : AProb K) (tol : List (Fl K)) (o0 : K) (S : List (List (Fl K))) (f : List (Fl K)) : Prop :=
  (P.info.nc = 0 → ∀ g ∈ S, f.getD 0 .nan ≤ g.getD 0 .nan) ∧
  ∀ g ∈ S, MeetsAll P.info.nec P.info.nc tol g → g.getD 0 .nan < .fin o0 →
    MeetsAll P.info.nec P.info.nc tol f ∧ ∀ g ∈ S, MeetsAll P.info.nec P.info.nc tol g → f.getD 0 .nan ≤ g.getD 0 .nan

omit [Field K] [LinearOrder K] [IsStrictOrderedRing K] in
theorem getD_some {α : Type} {l : List α} {i : Nat} {a d : α} (h : l[i]? = some a) : l.getD i d = a := by
  rw [List.getD_eq_getElem?_getD, h]; rfl

omit [Field K] [LinearOrder K] [IsStrictOrderedRing K] in
theorem getD_map_lt {α β : Type} {f : α → β} {l : List α} {i : Nat} (h : i < l.length) (d : α) {e : β} : (l.map f).getD i e = f (l.getD i d) := by
  rw [List.getD_eq_getElem _ _ (by simpa using h), List.getElem_map, List.getD_eq_getElem _ _ h]

theorem gaBest_of {v : GaEnv K σ} {R X : K → K} (hF : GaFns v R X) {P : AProb K} (hnobj : P.info.nobj = 1) {tol : List (Fl K)} (ht : tol.length = P.info.nc)
    (htf : AllFin tol) {ker : Nat} (hker : 0 < ker) {o0 o : K} {arch : List (List (Fl K))} (ha : GaArch P ker arch) {S : List (List (Fl K))} (hS : ∀ f ∈ S, f.length = P.info.nf ∧ AllFin f)
    (h : GaTop v P tol o0 o arch S) : GaBest P tol o0 S (gaInd P (arch.getD 0 [])).2 := by
  have h0 : 0 < arch.length := by rw [ha.1]; exact hker
  have hmem : arch.getD 0 [] ∈ arch := by rw [List.getD_eq_getElem _ _ h0]; exact List.getElem_mem h0
  obtain ⟨hin, hhead⟩ := h.rows _ hmem
  have hbest := h.best
  rw [hhead] at hbest
  generalize (gaInd P (arch.getD 0 [])).2 = f at hin hbest ⊢
  obtain ⟨y, r, f1, f2, f3, f4, -⟩ := gaPenOf_exact hF hnobj ht (hS f hin).1 htf (hS f hin).2
  unfold GaBest
  rw [getD_some f1]
  rw [f4] at hbest
  obtain ⟨p1, p2, p3⟩ := C114_penalty hF o y r f2
  constructor
  · intro hnc g hg
    obtain ⟨z, q, g1, g2, g3, g4, -⟩ := gaPenOf_exact hF hnobj ht (hS g hg).1 htf (hS g hg).2
    have hr0 : r = 0 := f3.mpr (fun j hj => absurd hj (by omega))
    have hq0 : q = 0 := g3.mpr (fun j hj => absurd hj (by omega))
    rw [getD_some g1, Fl.fin_le_fin]
    have hb := hbest g hg
    rw [g4, Fl.fin_le_fin, hr0, hq0] at hb
    by_contra hlt
    have := ((C114_penalty hF o z 0 le_rfl).2.2 y).mpr (not_le.mp hlt)
    linarith
  · intro g hg hgm hlt
    obtain ⟨z, q, g1, g2, g3, g4, -⟩ := gaPenOf_exact hF hnobj ht (hS g hg).1 htf (hS g hg).2
    have hq0 : q = 0 := g3.mpr hgm
    rw [getD_some g1, Fl.fin_lt_fin] at hlt
    -- the first row has penalty at most zero
    have hle : gaPenK R o y r ≤ 0 := by
      rcases h.src with rfl | ⟨-, w, hw, hwm, hwo⟩
      · have hb := hbest g hg
        rw [g4, Fl.fin_le_fin] at hb
        have := (C114_penalty hF o z q g2).1.mpr ⟨hq0, hlt⟩
        linarith
      · obtain ⟨z', q', w1, w2, w3, w4, -⟩ := gaPenOf_exact hF hnobj ht (hS w hw).1 htf (hS w hw).2
        have hb := hbest w hw
        rw [w4, Fl.fin_le_fin] at hb
        rw [hwo] at w1
        have := (C114_penalty hF o z' q' w2).2.1.mpr ⟨w3.mpr hwm, (Fl.fin.inj (Option.some.inj w1)).symm⟩
        linarith
    have hfeas : r = 0 ∧ y ≤ o := by
      rcases hle.lt_or_eq with h | h
      · exact ⟨(p1.mp h).1, (p1.mp h).2.le⟩
      · exact ⟨(p2.mp h).1, (p2.mp h).2.le⟩
    refine ⟨f3.mp hfeas.1, fun g' hg' hgm' => ?_⟩
    obtain ⟨z', q', w1, w2, w3, w4, -⟩ := gaPenOf_exact hF hnobj ht (hS g' hg').1 htf (hS g' hg').2
    rw [getD_some w1, Fl.fin_le_fin]
    have hb := hbest g' hg'
    rw [w4, Fl.fin_le_fin, hfeas.1, w3.mpr hgm'] at hb
    by_contra hlt'
    have := ((C114_penalty hF o z' 0 le_rfl).2.2 y).mpr (not_le.mp hlt')
    linarith

omit [Field K] [IsStrictOrderedRing K] in
theorem gaSorted_le {ps : List (Fl K)} {n : Nat} {sl : List Nat} (h : IsSorted (gaLess ps) (List.range n) sl) {j : Nat} (hj : j < n) :
    ps.getD (sl.getD 0 0) .nan ≤ ps.getD j .nan := by
  have hm : j ∈ sl := h.perm.mem_iff.mpr (List.mem_range.mpr hj)
  cases sl with
  | nil => simp at hm
  | cons a l =>
    rw [List.getD_cons_zero]
    rcases List.mem_cons.mp hm with rfl | hm
    · exact le_rfl
    · have := (List.pairwise_cons.mp h.sorted).1 j hm
      unfold gaLess at this
      exact not_lt.mp (fun hlt => by rw [(Fl.lessThanF_iff _ _).mpr hlt] at this; cases this)

/-- the first row of a new archive is the best of its candidates -/
theorem GaMerged.first {op : Fl.Ops K} {ker : Nat} (hk : 0 < ker) {acc : Fl K} {cands arch arch' : List (List (Fl K))} {slp nsl : List Nat} (hl : cands.length = 2 * ker)
    (h : GaMerged op ker acc cands arch arch' slp nsl) : arch'.getD 0 [] ∈ cands ∧ ∀ r ∈ cands, gaHead (arch'.getD 0 []) ≤ gaHead r := by
  obtain ⟨t, ht⟩ := h.kept.pos
  have hr := h.rows 0 hk
  rw [if_pos (by rw [ht]; simp), ht, List.getD_cons_zero] at hr
  have hsl : slp.length = 2 * ker := by rw [h.sorted.perm.length_eq, List.length_range]
  have h0 : 0 < slp.length := by omega
  have hj : slp.getD 0 0 < cands.length := by
    rw [List.getD_eq_getElem _ _ h0, hl]
    exact List.mem_range.mp (h.sorted.perm.mem_iff.mp (List.getElem_mem h0))
  rw [List.getElem?_eq_getElem hj] at hr
  rw [getD_some hr]
  refine ⟨List.getElem_mem hj, fun r hrm => ?_⟩
  obtain ⟨i, hi, rfl⟩ := List.getElem_of_mem hrm
  have := gaSorted_le h.sorted (j := i) (by omega)
  rw [getD_map_lt hj [], getD_map_lt hi [], List.getD_eq_getElem _ _ hi] at this
  rw [← List.getD_eq_getElem _ [] hj]
  exact this

theorem gaTop_archived {v : GaEnv K σ} {R X : K → K} (hF : GaFns v R X) {P : AProb K} (hnobj : P.info.nobj = 1) {tol : List (Fl K)} (ht : tol.length = P.info.nc)
    (htf : AllFin tol) {A : Gaco K} (hker : 0 < A.ker) {n gen : Nat} (hk : A.ker ≤ n) {xs fs : List (List (Fl K))} (hp : GaPop P n xs fs) (hfs : ∀ f ∈ fs, AllFin f)
    {o0 o : K} {ps : List (Fl K)} (hps : ps = fs.map (gaPenOf v P tol (.fin o))) {sl : List Nat} (hs : IsSorted (gaLess ps) (List.range n) sl)
    {m m' : GaMem K} {arch arch' : List (List (Fl K))} (ha : GaArch P A.ker arch) {S : List (List (Fl K))}
    (h : GaArchived v A gen xs fs ps sl m arch m' arch')
    (hS : ∀ f ∈ S, f.length = P.info.nf ∧ AllFin f)
    (hfresh : gen = 1 ∧ m.counter < 2 → o = o0) (hold : ¬ (gen = 1 ∧ m.counter < 2) → GaTop v P tol o0 o arch S) :
    GaTop v P tol o0 o arch' ((if gen = 1 ∧ m.counter < 2 then [] else S) ++ fs) := by
  have hsl : sl.length = n := by rw [hs.perm.length_eq, List.length_range]
  have hsl0 : 0 < sl.length := by omega
  have idx : ∀ j ∈ sl, j < n := fun j hj => List.mem_range.mp (hs.perm.mem_iff.mp hj)
  have head : ∀ j, j < n → gaHead (gaRowOf xs fs ps j) = ps.getD j .nan ∧ (gaInd P (gaRowOf xs fs ps j)).2 ∈ fs ∧
      ps.getD j .nan = gaPenOf v P tol (.fin o) (gaInd P (gaRowOf xs fs ps j)).2 := by
    intro j hj
    have hjf : j < fs.length := by rw [hp.fl]; exact hj
    obtain ⟨e1, e2⟩ := gaRowOf_ind hp ps hj
    refine ⟨rfl, (List.of_mem_zip e2).2, ?_⟩
    rw [e1, hps]
    dsimp only
    rw [List.getD_eq_getElem _ _ (by simpa using hjf), List.getElem_map, List.getD_eq_getElem _ _ hjf]
  have hmin : ∀ f ∈ fs, ps.getD (sl.getD 0 0) .nan ≤ gaPenOf v P tol (.fin o) f := by
    intro f hf
    obtain ⟨j, hj, rfl⟩ := List.getElem_of_mem hf
    have := gaSorted_le hs (j := j) (by rw [← hp.fl]; exact hj)
    rwa [show ps.getD j .nan = gaPenOf v P tol (.fin o) (fs.getD j []) from by rw [hps]; exact getD_map_lt hj [], List.getD_eq_getElem _ _ hj] at this
  have h0mem : sl.getD 0 0 ∈ sl := by rw [List.getD_eq_getElem _ _ hsl0]; exact List.getElem_mem hsl0
  have h0take : sl.getD 0 0 ∈ sl.take A.ker := by
    rw [List.getD_eq_getElem _ _ hsl0]
    have : 0 < (sl.take A.ker).length := by rw [List.length_take]; omega
    have e : (sl.take A.ker)[0] = sl[0] := by simp
    rw [← e]; exact List.getElem_mem this
  cases h with
  | fill hc =>
    rw [if_pos hc, List.nil_append]
    have e0 : ((sl.take A.ker).map (gaRowOf xs fs ps)).getD 0 [] = gaRowOf xs fs ps (sl.getD 0 0) := by
      rw [List.getD_eq_getElem _ _ (by simp; omega), List.getElem_map, List.getElem_take, List.getD_eq_getElem _ _ hsl0]
    refine ⟨?_, ?_, ?_, ?_⟩
    · intro r hr
      obtain ⟨j, hj, rfl⟩ := List.mem_map.mp hr
      obtain ⟨h1, h2, h3⟩ := head j (idx j (List.mem_of_mem_take hj))
      exact ⟨h2, h1.trans h3⟩
    · intro r hr
      obtain ⟨j, hj, rfl⟩ := List.mem_map.mp hr
      rw [e0]
      exact gaSorted_le hs (idx j (List.mem_of_mem_take hj))
    · intro f hf
      rw [e0]
      exact hmin f hf
    · exact Or.inl (hfresh hc)
  | merge hc hlt hm =>
    rw [if_neg hc]
    have hT : GaTop v P tol o0 o arch S := hold hc
    have hcl : ((sl.take A.ker).map (gaRowOf xs fs ps) ++ arch).length = 2 * A.ker := by simp [ha.1]; omega
    obtain ⟨q1, q2⟩ := hm.first hker hcl
    have hmem : ∀ r ∈ arch', r ∈ (sl.take A.ker).map (gaRowOf xs fs ps) ++ arch := fun r hr => hm.mem (fun r hr => by simp [hr]) hr
    have ha0 : arch.getD 0 [] ∈ arch := by
      rw [List.getD_eq_getElem _ _ (by rw [ha.1]; exact hker)]
      exact List.getElem_mem _
    refine ⟨?_, fun r hr => q2 r (hmem r hr), ?_, ?_⟩
    · intro r hr
      rcases List.mem_append.mp (hmem r hr) with h | h
      · obtain ⟨j, hj, rfl⟩ := List.mem_map.mp h
        obtain ⟨h1, h2, h3⟩ := head j (idx j (List.mem_of_mem_take hj))
        exact ⟨List.mem_append_right _ h2, h1.trans h3⟩
      · exact ⟨List.mem_append_left _ (hT.rows r h).1, (hT.rows r h).2⟩
    · intro f hf
      rcases List.mem_append.mp hf with h | h
      · exact (q2 _ (List.mem_append_right _ ha0)).trans (hT.best f h)
      · exact (q2 _ (List.mem_append_left _ (List.mem_map_of_mem h0take))).trans (hmin f h)
    · exact hT.src.imp id fun ⟨h1, f, h2, h3⟩ => ⟨h1, f, List.mem_append_left _ h2, h3⟩
  | keep hc hlt =>
    rw [if_neg hc]
    have hT : GaTop v P tol o0 o arch S := hold hc
    have hl1 : A.ker - 1 < arch.length := by rw [ha.1]; omega
    have hlast : arch.getD (A.ker - 1) [] ∈ arch := by
      rw [List.getD_eq_getElem _ _ hl1]
      exact List.getElem_mem _
    refine ⟨fun r hr => ⟨List.mem_append_left _ (hT.rows r hr).1, (hT.rows r hr).2⟩, hT.first, ?_, ?_⟩
    · intro f hf
      rcases List.mem_append.mp hf with h | h
      · exact hT.best f h
      · refine (hT.first _ hlast).trans (le_trans ?_ (hmin f h))
        by_contra hgt
        have hgt' := not_le.mp hgt
        have hn1 : gaHead (arch.getD (A.ker - 1) []) ≠ .nan := by
          obtain ⟨e1, e2⟩ := hT.rows _ hlast
          obtain ⟨y, r, -, -, -, e3, -⟩ := gaPenOf_exact hF hnobj ht (hS _ e1).1 htf (hS _ e1).2
          rw [e2, e3]
          simp
        have hn2 : ps.getD (sl.getD 0 0) .nan ≠ .nan := by
          intro he
          rw [he] at hgt'
          exact Fl.not_nan_lt _ hgt'
        rw [(Fl.lt_iff hn2 hn1).mpr hgt'] at hlt
        cases hlt
    · exact hT.src.imp id fun ⟨h1, f, h2, h3⟩ => ⟨h1, f, List.mem_append_left _ h2, h3⟩

theorem gaTop_oracled {v : GaEnv K σ} {R X : K → K} (hF : GaFns v R X) {P : AProb K} (hnobj : P.info.nobj = 1) {tol : List (Fl K)} (ht : tol.length = P.info.nc)
    (htf : AllFin tol) {A : Gaco K} (hker : 0 < A.ker) {o0 o : K} {m m' : GaMem K} (hm : m.oracle = .fin o) {arch arch' : List (List (Fl K))} (ha : GaArch P A.ker arch)
    {S : List (List (Fl K))} (hS : ∀ f ∈ S, f.length = P.info.nf ∧ AllFin f) (h : GaOracled v P A tol m arch m' arch') (hT : GaTop v P tol o0 o arch S) :
    ∃ o', m'.oracle = .fin o' ∧ GaTop v P tol o0 o' arch' S := by
  have hnf : 0 < P.info.nf := by simp only [Info.nf, Info.nc]; omega
  have h0 : 0 < arch.length := by rw [ha.1]; exact hker
  have hmem : arch.getD 0 [] ∈ arch := by rw [List.getD_eq_getElem _ _ h0]; exact List.getElem_mem h0
  cases h with
  | same _ => exact ⟨o, hm, hT⟩
  | update hlt =>
    obtain ⟨hin, hhead⟩ := hT.rows _ hmem
    obtain ⟨y, r, f1, f2, f3, f4, f5⟩ := gaPenOf_exact hF hnobj ht (hS _ hin).1 htf (hS _ hin).2
    have hfit : gaFit P (arch.getD 0 []) = .fin y := by rw [gaFit_eq hnf, getD_some f1]
    have hnew : gaNewOracle v P tol m.oracle (arch.getD 0 []) = .fin (if r = 0 then y else o) := by
      unfold gaNewOracle
      rw [f5 0 _ rfl, hfit, hm]
      by_cases hr : r = 0
      · rw [if_pos (Or.inr (by simp [Fl.eq, hr])), if_pos hr]
      · rw [if_neg, if_neg hr]
        rintro (⟨h1, h2⟩ | h)
        · refine hr (f3.mpr fun j hj => absurd hj ?_)
          simp only [Info.nc]
          omega
        · simp [Fl.eq, hr] at h
    rw [hnew]
    generalize ho' : (if r = 0 then y else o) = o'
    have hyo : y < o := by
      rw [hfit, hm] at hlt
      simpa [Fl.lt] using hlt
    have fresh : ∀ (i : Nat) (row : List (Fl K)), row ∈ arch → gaHead (gaFresh v P (.fin o') (gaResOf v P tol i row) row) =
        gaPenOf v P tol (.fin o') (gaInd P row).2 := by
      intro i row hrow
      obtain ⟨g1, -⟩ := hT.rows _ hrow
      obtain ⟨z, q, e1, e2, e3, e4, e5⟩ := gaPenOf_exact hF hnobj ht (hS _ g1).1 htf (hS _ g1).2
      have hl := ha.2 row hrow
      unfold gaFresh
      rw [e5 i row rfl, gaFit_eq hnf, getD_some e1, gaPen_exact hF _ _ _ e2, e4]
      unfold gaHead
      rw [List.getD_eq_getElem _ _ (by rw [List.length_set]; omega), List.getElem_set_self]
    have row0 : (arch.mapIdx (fun i r => gaFresh v P (.fin o') (gaResOf v P tol i r) r)).getD 0 [] =
        gaFresh v P (.fin o') (gaResOf v P tol 0 (arch.getD 0 [])) (arch.getD 0 []) := by
      rw [List.getD_eq_getElem _ _ (by simpa using h0), List.getElem_mapIdx, List.getD_eq_getElem _ _ h0]
    have best : ∀ g ∈ S, gaPenOf v P tol (.fin o') (gaInd P (arch.getD 0 [])).2 ≤ gaPenOf v P tol (.fin o') g := by
      intro g hg
      have hb := hT.best g hg
      rw [hhead] at hb
      obtain ⟨z, q, g1, g2, g3, g4, -⟩ := gaPenOf_exact hF hnobj ht (hS g hg).1 htf (hS g hg).2
      rw [f4, g4, Fl.fin_le_fin] at hb ⊢
      by_cases hr : r = 0
      · rw [if_pos hr] at ho'
        subst ho'
        have z0 := (C114_penalty hF y y r f2).2.1.mpr ⟨hr, rfl⟩
        rw [z0]
        by_contra hneg
        obtain ⟨hq, hzy⟩ := (C114_penalty hF y z q g2).1.mp (not_le.mp hneg)
        have := ((C114_penalty hF o z 0 le_rfl).2.2 y).mpr hzy
        rw [hq, hr] at hb
        linarith
      · rw [if_neg hr] at ho'
        subst ho'
        exact hb
    refine ⟨o', by unfold gaStored; split <;> rfl, ?_, ?_, ?_, ?_⟩
    · intro r' hr'
      obtain ⟨j, hj, rfl⟩ := List.getElem_of_mem hr'
      rw [List.getElem_mapIdx, gaFresh_ind]
      have hj' : j < arch.length := by simpa using hj
      exact ⟨(hT.rows _ (List.getElem_mem hj')).1, fresh _ _ (List.getElem_mem hj')⟩
    · intro r' hr'
      obtain ⟨j, hj, rfl⟩ := List.getElem_of_mem hr'
      have hj' : j < arch.length := by simpa using hj
      rw [List.getElem_mapIdx, row0, fresh _ _ hmem, fresh _ _ (List.getElem_mem hj')]
      exact best _ (hT.rows _ (List.getElem_mem hj')).1
    · intro g hg
      rw [row0, fresh _ _ hmem]
      exact best g hg
    · by_cases hr : r = 0
      · rw [if_pos hr] at ho'
        subst ho'
        refine Or.inr ⟨?_, _, hin, f3.mp hr, f1⟩
        rcases hT.src with h | ⟨h, -⟩ <;> linarith
      · rw [if_neg hr] at ho'
        subst ho'
        exact hT.src

omit [Field K] [LinearOrder K] [IsStrictOrderedRing K] in
theorem gaFlatten_inj {α : Type} {n : Nat} : ∀ {G H : List (List α)}, G.length = H.length → (∀ g ∈ G, g.length = n) → (∀ g ∈ H, g.length = n) →
    G.flatten = H.flatten → G = H := by
  intro G
  induction G with
  | nil => intro H h _ _ _; exact (List.length_eq_zero_iff.mp h.symm).symm
  | cons g G ih =>
    intro H h h1 h2 he
    cases H with
    | nil => simp at h
    | cons k H =>
      rw [List.flatten_cons, List.flatten_cons] at he
      obtain ⟨e1, e2⟩ := List.append_inj he (by rw [h1 g (by simp), h2 k (by simp)])
      rw [e1, ih (by simpa using h) (fun g hg => h1 g (by simp [hg])) (fun g hg => h2 g (by simp [hg])) e2]

omit [IsStrictOrderedRing K] in
theorem gaSteps_first {v : GaEnv K σ} {P : AProb K} {A : Gaco K} {tol : List (Fl K)} {n : Nat} {a : GaState K} :
    ∀ {k : Nat} {b : GaState K}, Steps (GaFull v P A tol n) (k + 1) a b → GaPop P n a.xs a.fs := by
  intro k
  induction k with
  | zero =>
    intro b h
    cases h with
    | snoc h hS => cases h; exact hS.popA
  | succ k ih =>
    intro b h
    cases h with
    | snoc h hS => exact ih h

omit [IsStrictOrderedRing K] in
theorem gaSteps_dims {v : GaEnv K σ} {P : AProb K} {A : Gaco K} {tol : List (Fl K)} {n : Nat} {a : GaState K} {k : Nat} {b : GaState K}
    (h : Steps (GaFull v P A tol n) k a b) : ∃ new, b.evs = a.evs ++ asCalls new ∧ ∀ p ∈ new, p.2.length = P.info.nf := by
  induction h with
  | refl s => exact ⟨[], by simp [asCalls], by simp⟩
  | snoc h hS ih =>
    rename_i b c
    obtain ⟨new, he, hn⟩ := ih
    obtain ⟨-, hpb, -, -, ps, sl, m1, arch1, sig, check, hw⟩ := hS
    refine ⟨new ++ c.xs.zip c.fs, by rw [hw.ev, he]; simp [asCalls], ?_⟩
    intro p hp
    rcases List.mem_append.mp hp with hp | hp
    · exact hn p hp
    · exact hpb.df _ (List.of_mem_zip hp).2

omit [Field K] [LinearOrder K] [IsStrictOrderedRing K] in
theorem asCalls_inj {G H : List (List (Fl K) × List (Fl K))} (h : asCalls G = asCalls H) : G = H := by
  have inj : Function.Injective (fun p : List (Fl K) × List (Fl K) => ((p.1, Except.ok p.2) : ECall K)) := by
    rintro ⟨x, f⟩ ⟨x', f'⟩ h
    simp only [Prod.mk.injEq, Except.ok.injEq] at h
    exact Prod.ext h.1 h.2
  exact (List.map_injective_iff.mpr inj) h

/-- The first row is the best of what is known. `S` are the fitness vectors known at first, for which there is an archive. -/
theorem gaSteps_top {v : GaEnv K σ} {R X : K → K} (hF : GaFns v R X) {P : AProb K} (hnobj : P.info.nobj = 1) {A : Gaco K} (hker : 0 < A.ker) {tol : List (Fl K)}
    (ht : tol.length = P.info.nc) (htf : AllFin tol) {n : Nat} (hk : A.ker ≤ n) {a : GaState K} (hag : a.g = 0) {o0 o : K} (hao : a.m.oracle = .fin o)
    (hfs : ∀ f ∈ a.fs, AllFin f) {S : List (List (Fl K))} (hS : ∀ f ∈ S, f.length = P.info.nf ∧ AllFin f) (hfresh : a.m.counter < 2 → o = o0 ∧ S = [])
    (hold : 2 ≤ a.m.counter → GaTop v P tol o0 o (gaStart A a.m a.arch) S) :
    ∀ (k : Nat) (b : GaState K) (G : List (List (List (Fl K) × List (Fl K)))), Steps (GaFull v P A tol n) k a b → G.length = k → (∀ g ∈ G, g.length = n) →
      b.evs = a.evs ++ asCalls G.flatten → (∀ p ∈ G.flatten, AllFin p.2) → 0 < k → ∃ o', b.m.oracle = .fin o' ∧ GaTop v P tol o0 o' b.arch (S ++ a.fs ++ G.dropLast.flatten.map Prod.snd) := by
  intro k
  induction k with
  | zero => intro _ _ _ _ _ _ _ h; exact absurd h (by omega)
  | succ k ih =>
    intro c G h hl hn hev hfin _
    cases h with
    | snoc h hS1 =>
      rename_i b
      obtain ⟨hbg, hbc, hbst, G0, hl0, hn0, he0, hpop0, -⟩ := gaSteps_gens hk hag _ _ h
      have hfull := hS1
      obtain ⟨hpa, hpb, haa, -, ps, sl, m1, arch1, sig, check, hw⟩ := hS1
      -- the generations before
      have hG : G = G0 ++ [c.xs.zip c.fs] := by
        have e := hw.ev
        rw [hev, he0, List.append_assoc] at e
        have e' := List.append_cancel_left e
        have e'' : G.flatten = (G0 ++ [c.xs.zip c.fs]).flatten := asCalls_inj (by rw [e']; simp [asCalls])
        refine gaFlatten_inj ?_ hn ?_ e''
        · simp [hl, hl0]
        · intro g hg
          rcases List.mem_append.mp hg with h | h
          · exact hn0 g h
          · rw [List.mem_singleton.mp h, List.length_zip, hpb.xl, hpb.fl, Nat.min_self]
      subst hG
      rw [List.dropLast_concat]
      have hfin0 : ∀ p ∈ G0.flatten, AllFin p.2 := fun p hp => hfin p (by simp only [List.flatten_append]; exact List.mem_append_left _ hp)
      have hbpop : b.fs = (G0.getLastD (a.xs.zip a.fs)).map Prod.snd := by
        rw [← hpop0, List.map_snd_zip (by rw [hpa.xl, hpa.fl])]
      have hbfs : ∀ f ∈ b.fs, AllFin f := by
        rcases G0.eq_nil_or_concat with rfl | ⟨G', g, rfl⟩
        · simp only [List.length_nil] at hl0
          subst hl0
          cases h
          exact hfs
        · simp only [List.concat_eq_append, List.getLastD_concat] at hbpop hfin0
          rw [hbpop]
          intro f hf
          obtain ⟨p, hp, rfl⟩ := List.mem_map.mp hf
          exact hfin0 p (by simp only [List.flatten_append]; exact List.mem_append_right _ (by simpa using hp))
      obtain ⟨ha1, -⟩ := gaArchived_arch hpa hw.sorted.perm hk haa hw.archived
      obtain ⟨q, hq⟩ := gaPhero_mem v A (b.g + 1) (gaStored A m1 arch1) b.cum
      have horc : (gaPhero v A (b.g + 1) (gaStored A m1 arch1) b.cum).1.oracle = b.m.oracle := by
        rw [hq]
        have e1 : (gaStored A m1 arch1).oracle = m1.oracle := by unfold gaStored; split <;> rfl
        dsimp only
        rw [e1]
        cases hw.archived <;> rfl
      -- what is known before this generation
      obtain ⟨ob, S', hob, hS'f, hfresh', hold', heq⟩ : ∃ (ob : K) (S' : List (List (Fl K))), b.m.oracle = .fin ob ∧ (∀ f ∈ S', f.length = P.info.nf ∧ AllFin f) ∧
          (b.g + 1 = 1 ∧ b.m.counter < 2 → ob = o0) ∧ (¬ (b.g + 1 = 1 ∧ b.m.counter < 2) → GaTop v P tol o0 ob (gaStart A b.m b.arch) S') ∧
          (if b.g + 1 = 1 ∧ b.m.counter < 2 then [] else S') ++ b.fs = S ++ a.fs ++ G0.flatten.map Prod.snd := by
        rcases Nat.eq_zero_or_pos k with rfl | hk0
        · cases h
          have : G0 = [] := List.length_eq_zero_iff.mp hl0
          subst this
          refine ⟨o, S, hao, hS, fun h => (hfresh h.2).1, fun h => hold ?_, ?_⟩
          · by_contra hc
            exact h ⟨by omega, by omega⟩
          · split
            · rename_i hc; rw [(hfresh hc.2).2]; simp
            · simp
        · obtain ⟨o', ho', hT'⟩ := ih b G0 h hl0 hn0 he0 hfin0 hk0
          have hnot : ¬ (b.g + 1 = 1 ∧ b.m.counter < 2) := by rw [hbg]; omega
          refine ⟨o', _, ho', ?_, fun h => absurd h hnot, fun _ => by rw [(hbst hk0).2]; exact hT', ?_⟩
          · intro f hf
            rcases List.mem_append.mp hf with hf | hf
            · rcases List.mem_append.mp hf with hf | hf
              · exact hS f hf
              · refine ⟨?_, hfs f hf⟩
                clear ih
                have : GaPop P n a.xs a.fs := by
                  cases k with
                  | zero => omega
                  | succ k => exact gaSteps_first h
                exact this.df f hf
            · obtain ⟨p, hp, rfl⟩ := List.mem_map.mp hf
              obtain ⟨g, hg, hpg⟩ := List.mem_flatten.mp hp
              have hp' : p ∈ G0.flatten := List.mem_flatten.mpr ⟨g, List.dropLast_subset _ hg, hpg⟩
              obtain ⟨new, d1, d2⟩ := gaSteps_dims h
              rw [he0] at d1
              rw [asCalls_inj (List.append_cancel_left d1)] at hp'
              refine ⟨d2 p hp', hfin0 p (List.mem_flatten.mpr ⟨g, List.dropLast_subset _ hg, hpg⟩)⟩
          · rw [if_neg hnot]
            rcases G0.eq_nil_or_concat with rfl | ⟨G', g, rfl⟩
            · simp at hl0; omega
            · simp only [List.concat_eq_append, List.getLastD_concat, List.dropLast_concat] at hbpop ⊢
              rw [hbpop]
              simp
      have hps : ps = b.fs.map (gaPenOf v P tol (.fin ob)) := by rw [hw.pens, hob]
      have hT1 := gaTop_archived hF hnobj ht htf hker hk hpa hbfs hps hw.sorted haa hw.archived hS'f hfresh' hold'
      rw [heq] at hT1
      refine gaTop_oracled hF hnobj ht htf hker (by dsimp only; rw [horc]; exact hob) ha1 ?_ hw.oracle hT1
      intro f hf
      rw [← heq] at hf
      rcases List.mem_append.mp hf with hf | hf
      · split at hf
        · simp at hf
        · exact hS'f f hf
      · exact ⟨hpa.df f hf, hbfs f hf⟩

/-- What a run finds, with the fitness vectors `S` known before it. -/
structure GaFound (v : GaEnv K σ) (P : AProb K) (A : Gaco K) (o0 : K) (S : List (List (Fl K))) (s : St K σ) (m m' : GaMem K) (s' : St K σ)
    (G : List (List (List (Fl K) × List (Fl K)))) (o' : K) (arch : List (List (Fl K))) : Prop where
  oracle : m'.oracle = .fin o'
  top : GaTop v P s.pop.tol o0 o' arch (S ++ s.pop.f ++ G.dropLast.flatten.map Prod.snd)
  fin : ∀ f ∈ S ++ s.pop.f ++ G.dropLast.flatten.map Prod.snd, f.length = P.info.nf ∧ AllFin f
  best : GaBest P s.pop.tol o0 (S ++ s.pop.f ++ G.dropLast.flatten.map Prod.snd) (gaInd P (arch.getD 0 [])).2
  kept : A.memory = true → m'.arch = arch ∧ m'.counter = (gaCount A m).counter
  shown : A.memory = false → G.length = A.gens → s'.pop.f.getD 0 [] = (gaInd P (arch.getD 0 [])).2

theorem ga_best {v : GaEnv K σ} {R X : K → K} (hF : GaFns v R X) {rep : K → Prop} (hg : v.g.Lawful rep) (hsrt : ValidSort v.srt) (hrd : RoundOk v.rd) {P : AProb K}
    (hP : FiniteBox P) (hst : P.info.stochastic = false) (hnobj : P.info.nobj = 1) {A : Gaco K} (hker : 2 ≤ A.ker)
    (hgens : A.gens + 1 < 2 ^ 32) (hgens0 : A.gens ≠ 0) (hmk : A.nGenMark + 1 < 2 ^ 32) {foc : K} (hf : A.focus = .fin foc)
    {bfe : Option (Batch K)} (hok : ∀ b, bfe = some b → BatchOk P b) (hfit : ∀ h x f, InBox P.lb P.ub P.nix x → P.fit h x = .ok f → AllFin f)
    {s : St K σ} (hi : Inv P.info s.pop) (hx : ∀ x ∈ s.pop.x, AllFin x) (hff : ∀ f ∈ s.pop.f, AllFin f) (htf : AllFin s.pop.tol)
    (hch : s.pop.chX ≠ []) (hk : A.ker ≤ s.pop.id.length) {m : GaMem K} (hm : GaMemOk P A m) (hmn : GaMemNum P A m) {o0 o : K} (hmo : m.oracle = .fin o)
    {S : List (List (Fl K))} (hS : ∀ f ∈ S, f.length = P.info.nf ∧ AllFin f) (hfresh : (gaCount A m).counter < 2 → o = o0 ∧ S = [])
    (hold : 2 ≤ (gaCount A m).counter → A.memory = true ∧ GaTop v P s.pop.tol o0 o m.arch S) {fuel : Nat} (hfuel : A.gens < fuel) :
    wp (gaEvolve v P A bfe fuel m) (fun m' s' => ∃ G : List (List (List (Fl K) × List (Fl K))), G.length ≤ A.gens ∧ (∀ g ∈ G, g.length = s.pop.id.length) ∧
      s'.evs = s.evs ++ asCalls G.flatten ∧ (G = [] → m' = gaCount A m) ∧ (G ≠ [] → ∃ o' arch, GaFound v P A o0 S s m m' s' G o' arch)) (CmFailed (GaBox P) P bfe s) s := by
  refine ((ga_run hg hsrt hrd hP.bounds hP.nx hst hnobj hker hgens hgens0 hok hi hch hk hm hfuel).and
    (C113_box v R X hF rep hg hsrt hrd P hP hst hnobj A hker hgens hgens0 hmk foc hf bfe hok s hi hx hch hk m hm hmn fuel hfuel)).mono ?_ (fun _ _ h => h.1)
  rintro m' s' ⟨⟨⟨new, ht⟩, b, rfl, hcase⟩, ⟨new', hnew', hbox⟩, -⟩
  have e1 : (gaCount A m).arch = m.arch := by unfold gaCount; split <;> rfl
  have e2 : (gaCount A m).oracle = m.oracle := by unfold gaCount; split <;> rfl
  have key : ∀ (k : Nat) (b1 : GaVars K) (s1 : St K σ), GaMid v P A (gaInit P A m) s k b1 s1 → s1.evs = s'.evs → (k = A.gens → A.memory = false →
        s'.pop.f.getD 0 [] = (gaInd P (b1.arch.getD 0 [])).2) → k ≤ A.gens →
      ∃ G : List (List (List (Fl K) × List (Fl K))), G.length ≤ A.gens ∧ (∀ g ∈ G, g.length = s.pop.id.length) ∧
      s'.evs = s.evs ++ asCalls G.flatten ∧ (G = [] → b1.m = gaCount A m) ∧ (G ≠ [] → ∃ o' arch, GaFound v P A o0 S s m b1.m s' G o' arch) := by
    intro k b1 s1 hmid he hshow hkg
    obtain ⟨g1, g2, g3, G, hl, hn, hev, hpop, -⟩ := gaSteps_gens hk rfl _ _ hmid.run
    have hev' : s'.evs = s.evs ++ asCalls G.flatten := by rw [← he]; exact hev
    have hfin : ∀ p ∈ G.flatten, AllFin p.2 := by
      intro p hp
      have hnew : new = asCalls G.flatten := by
        have := ht.evs
        rw [hev'] at this
        exact (List.append_cancel_left this).symm
      have hnew2 : new = new' := by
        have := ht.evs
        rw [hnew'] at this
        exact (List.append_cancel_left this).symm
      have hmem : (p.1, Except.ok p.2) ∈ new := by rw [hnew]; exact List.mem_map_of_mem hp
      obtain ⟨h, e⟩ := ht.user _ hmem
      exact hfit h p.1 p.2 (hbox _ (hnew2 ▸ hmem)) e.symm
    refine ⟨G, by omega, hn, hev', ?_, ?_⟩
    · rintro rfl
      have hk0 : k = 0 := by simpa using hl.symm
      subst hk0
      have hrun := hmid.run
      generalize hgs : gaSt b1 0 s1 = y at hrun
      cases hrun
      exact congrArg GaState.m hgs
    · intro hne
      have hk0 : 0 < k := by
        rw [← hl]; exact List.length_pos_iff.mpr hne
      have hall : ∀ f ∈ S ++ s.pop.f ++ G.dropLast.flatten.map Prod.snd, f.length = P.info.nf ∧ AllFin f := by
        intro f hf
        rcases List.mem_append.mp hf with hf | hf
        · rcases List.mem_append.mp hf with hf | hf
          · exact hS f hf
          · exact ⟨hi.wf.dimF f hf, hff f hf⟩
        · obtain ⟨p, hp, rfl⟩ := List.mem_map.mp hf
          obtain ⟨g, hg, hpg⟩ := List.mem_flatten.mp hp
          have hp' : p ∈ G.flatten := List.mem_flatten.mpr ⟨g, List.dropLast_subset _ hg, hpg⟩
          obtain ⟨new2, d1, d2⟩ := gaSteps_dims hmid.run
          rw [hev] at d1
          have hp2 := hp'
          rw [asCalls_inj (List.append_cancel_left d1)] at hp2
          exact ⟨d2 p hp2, hfin p hp'⟩
      obtain ⟨o', ho', hT⟩ := gaSteps_top hF hnobj (by omega) hi.tol htf hk rfl (a := gaSt (gaInit P A m) 0 s) (o := o) (o0 := o0)
        (by show (gaCount A m).oracle = _; rw [e2, hmo]) hff hS hfresh (by
          intro hc
          obtain ⟨hm1, hT⟩ := hold hc
          show GaTop v P s.pop.tol o0 o (gaStart A (gaCount A m) _) S
          unfold gaStart
          rw [if_pos ⟨hm1, hc⟩, e1]
          exact hT) k _ G hmid.run hl hn hev hfin hk0
      refine ⟨o', b1.arch, ho', hT, hall, gaBest_of hF hnobj hi.tol htf (by omega) (hmid.real hk0) hall hT, fun hmem => ⟨(g3 hk0).1 hmem, g2⟩, ?_⟩
      intro hmem hlen
      exact hshow (by omega) hmem
  rcases hcase with ⟨s1, hmid, hend⟩ | ⟨k, hk1, hk2, b1, hmid, hstop, rfl⟩
  · refine key _ _ _ hmid hend.evs.symm ?_ le_rfl
    intro _ hmem
    rw [hend.f, if_neg (by simp [hmem])]
    have har := hmid.real (by omega)
    cases hba : b.arch with
    | nil => rw [hba] at har; have := har.1; simp at this; omega
    | cons r l => simp
  · exact key _ b1 _ hmid rfl (fun h => absurd h (by omega)) (by omega)

/-- C114. Without memory, if none of the criteria stopped the run, the first individual is, in exact arithmetic and with finite fitnesses, the best of all
individuals at the begin and those evaluated in all generations but the last one: without constraints it has the smallest objective; with constraints it is
feasible and has the smallest objective of the feasible ones, as soon as one of them has an objective smaller than the oracle was at the begin (`GaBest`).
Missing: the last generation, runs that were stopped and runs with memory (see `C114_last`, `C114_stopped`). -/
theorem C114_best_partial (v : GaEnv K σ) (R X : K → K) (hF : GaFns v R X) (rep : K → Prop) (hg : v.g.Lawful rep) (hsrt : ValidSort v.srt) (hrd : RoundOk v.rd) (P : AProb K)
    (hP : FiniteBox P) (hst : P.info.stochastic = false) (hnobj : P.info.nobj = 1) (A : Gaco K) (hker : 2 ≤ A.ker)
    (hgens : A.gens + 1 < 2 ^ 32) (hgens0 : A.gens ≠ 0) (hmk : A.nGenMark + 1 < 2 ^ 32) (foc : K) (hf : A.focus = .fin foc) (hmem : A.memory = false)
    (bfe : Option (Batch K)) (hok : ∀ b, bfe = some b → BatchOk P b) (hfit : ∀ h x f, InBox P.lb P.ub P.nix x → P.fit h x = .ok f → AllFin f)
    (s : St K σ) (hi : Inv P.info s.pop) (hx : ∀ x ∈ s.pop.x, AllFin x) (hff : ∀ f ∈ s.pop.f, AllFin f) (htf : AllFin s.pop.tol)
    (hch : s.pop.chX ≠ []) (hk : A.ker ≤ s.pop.id.length) (m : GaMem K) (hcnt : m.counter = 0) (hmn : GaMemNum P A m) (o0 : K) (hmo : m.oracle = .fin o0)
    (fuel : Nat) (hfuel : A.gens < fuel) :
    wp (gaEvolve v P A bfe fuel m) (fun _ s' => ∃ G : List (List (List (Fl K) × List (Fl K))), G.length ≤ A.gens ∧ (∀ g ∈ G, g.length = s.pop.id.length) ∧
      s'.evs = s.evs ++ asCalls G.flatten ∧ (G.length = A.gens → GaBest P s.pop.tol o0 (s.pop.f ++ G.dropLast.flatten.map Prod.snd) (s'.pop.f.getD 0 [])))
      (CmFailed (GaBox P) P bfe s) s := by
  have hc : (gaCount A m).counter = 0 := by unfold gaCount; rw [if_neg (by simp [hmem])]; exact hcnt
  refine (ga_best hF hg hsrt hrd hP hst hnobj hker hgens hgens0 hmk hf hok hfit hi hx hff htf hch hk (fun h => by rw [hmem] at h; cases h) hmn hmo
    (S := []) (o0 := o0) (by simp) (fun _ => ⟨rfl, rfl⟩) (fun h => by omega) hfuel).mono ?_ (fun _ _ h => h)
  rintro m' s' ⟨G, h1, h2, h3, -, h4⟩
  refine ⟨G, h1, h2, h3, fun hl => ?_⟩
  obtain ⟨o', arch, h⟩ := h4 (by rintro rfl; simp at hl; omega)
  rw [h.shown hmem hl]
  exact h.best

/-- With memory: the members after some calls. `S` are the fitness vectors known so far, `o0` was the oracle at the begin. -/
structure GaKnown (v : GaEnv K σ) (P : AProb K) (tol : List (Fl K)) (o0 : K) (S : List (List (Fl K))) (m : GaMem K) : Prop where
  fin : ∀ f ∈ S, f.length = P.info.nf ∧ AllFin f
  top : ∃ o, m.oracle = .fin o ∧ (m.counter = 0 ∧ o = o0 ∧ S = [] ∨ 1 ≤ m.counter ∧ GaTop v P tol o0 o m.arch S)

/-- C114. With memory the best individual found over several calls is kept in the first row of the archive, but the population returned is the last
generation. If a call starts with members that have seen the fitness vectors `S` (none for the first call), and does not stop at once, then after it the members
have seen also those of the population and of all generations of the call except the last, and the first row is the best of all of them. -/
theorem C114_memory_partial (v : GaEnv K σ) (R X : K → K) (hF : GaFns v R X) (rep : K → Prop) (hg : v.g.Lawful rep) (hsrt : ValidSort v.srt) (hrd : RoundOk v.rd) (P : AProb K)
    (hP : FiniteBox P) (hst : P.info.stochastic = false) (hnobj : P.info.nobj = 1) (A : Gaco K) (hker : 2 ≤ A.ker)
    (hgens : A.gens + 1 < 2 ^ 32) (hgens0 : A.gens ≠ 0) (hmk : A.nGenMark + 1 < 2 ^ 32) (foc : K) (hf : A.focus = .fin foc) (hmem : A.memory = true)
    (bfe : Option (Batch K)) (hok : ∀ b, bfe = some b → BatchOk P b) (hfit : ∀ h x f, InBox P.lb P.ub P.nix x → P.fit h x = .ok f → AllFin f)
    (s : St K σ) (hi : Inv P.info s.pop) (hx : ∀ x ∈ s.pop.x, AllFin x) (hff : ∀ f ∈ s.pop.f, AllFin f) (htf : AllFin s.pop.tol)
    (hch : s.pop.chX ≠ []) (hk : A.ker ≤ s.pop.id.length) (m : GaMem K) (hm : GaMemOk P A m) (hcnt : m.counter + 1 < 2 ^ 32) (hmn : GaMemNum P A m)
    (o0 : K) (S : List (List (Fl K))) (hkn : GaKnown v P s.pop.tol o0 S m) (fuel : Nat) (hfuel : A.gens < fuel) :
    wp (gaEvolve v P A bfe fuel m) (fun m' s' => ∃ G : List (List (List (Fl K) × List (Fl K))), G.length ≤ A.gens ∧ (∀ g ∈ G, g.length = s.pop.id.length) ∧
      s'.evs = s.evs ++ asCalls G.flatten ∧ (G ≠ [] → GaKnown v P s.pop.tol o0 (S ++ s.pop.f ++ G.dropLast.flatten.map Prod.snd) m' ∧
        GaBest P s.pop.tol o0 (S ++ s.pop.f ++ G.dropLast.flatten.map Prod.snd) (((m'.arch.getD 0 []).drop (1 + P.info.nx)).take P.info.nf)))
      (CmFailed (GaBox P) P bfe s) s := by
  have hc : (gaCount A m).counter = m.counter + 1 := by
    unfold gaCount
    rw [if_pos hmem]
    exact Nat.mod_eq_of_lt hcnt
  obtain ⟨hS, o, hmo, hcase⟩ := hkn
  refine (ga_best hF hg hsrt hrd hP hst hnobj hker hgens hgens0 hmk hf hok hfit hi hx hff htf hch hk hm hmn hmo
    (S := S) (o0 := o0) hS ?_ ?_ hfuel).mono ?_ (fun _ _ h => h)
  · intro h
    rcases hcase with h' | h'
    · exact h'.2
    · omega
  · intro h
    rcases hcase with h' | h'
    · omega
    · exact ⟨hmem, h'.2⟩
  rintro m' s' ⟨G, h1, h2, h3, -, h4⟩
  refine ⟨G, h1, h2, h3, fun hl => ?_⟩
  obtain ⟨o', arch, h⟩ := h4 hl
  obtain ⟨k1, k2⟩ := h.kept hmem
  have hb := h.best
  rw [← k1] at hb
  refine ⟨⟨h.fin, o', h.oracle, Or.inr ⟨by omega, by rw [k1]; exact h.top⟩⟩, hb⟩

end

/-! ### Examples, and where the best is lost -/

/-- An increasing function in place of the exponential. -/
def gaDemoExp : Fl ℚ → Fl ℚ
  | .fin x => .fin (if x < 0 then 1 / (1 - x) else 1 + x)
  | .pinf => .pinf
  | .ninf => .fin 0
  | .nan => .nan

def gaDemoEnv : GaEnv ℚ (List ℚ) := { algDemoEnv with d := sgaDist, ex := gaDemoExp, rd := sgaRound, pi := 3 }

/-- two generations, an archive of three rows -/
def gaDemoPars (memory : Bool) : Gaco ℚ := ⟨2, 3, .fin 0, 2, 7, 0, 0, .fin 0, memory⟩

/-- the members after the constructor -/
def gaDemoMem : GaMem ℚ := ⟨.fin 0, .fin 1, 0, [], 1, 1, 1⟩

/-- three individuals, with the objectives 9, 1 and 4 -/
def gaDemoSt (e : List ℚ) : St ℚ (List ℚ) := { algDemoSt with e := e }

example : gaCtor 2 3 (.fin (1 : ℚ)) (.fin 0) (.fin 0) 2 7 0 0 (.fin 0) true = .ok (gaDemoPars true, gaDemoMem) := by decide +kernel

theorem sgaRound_ok : RoundOk sgaRound where
  near a := ⟨round a, rfl, by
    have := abs_sub_round a
    rw [abs_sub_comm] at this
    linarith⟩
  nan := rfl
  pinf := rfl
  ninf := rfl

theorem gaDemo_fns : GaFns gaDemoEnv id (fun x => if x < 0 then 1 / (1 - x) else 1 + x) where
  op := rfl
  int _ := rfl
  sqrt _ _ := rfl
  sqrt0 := rfl
  sqrtPos _ h := h
  sqrtGe _ h := h
  sqrtLe _ _ h := h
  exp _ := rfl
  expPos a := by
    split
    · rename_i h
      have : 0 < 1 - a := by linarith
      positivity
    · linarith
  expMono a b h := by
    show (if a < 0 then 1 / (1 - a) else 1 + a) < (if b < 0 then 1 / (1 - b) else 1 + b)
    split <;> split
    · exact one_div_lt_one_div_of_lt (by linarith) (by linarith)
    · rename_i h1 h2
      have : 1 / (1 - a) < 1 := by rw [div_lt_one (by linarith)]; linarith
      linarith
    · linarith
    · linarith
  pi := by norm_num [gaDemoEnv]

theorem gaDemo_memOk : GaMemOk algDemo (gaDemoPars true) gaDemoMem := fun _ h => by simp [gaDemoMem] at h

theorem gaDemo_memNum (memory : Bool) : GaMemNum algDemo (gaDemoPars memory) gaDemoMem :=
  ⟨fun _ r hr => by simp [gaDemoMem] at hr, by simp [gaDemoMem, gaDemoPars]⟩

theorem gaDemo_fin (e : List ℚ) : (∀ x ∈ (gaDemoSt e).pop.x, AllFin x) ∧ (∀ f ∈ (gaDemoSt e).pop.f, AllFin f) ∧ AllFin (gaDemoSt e).pop.tol := by
  simp [gaDemoSt, algDemoSt, AllFin]

theorem gaDemo_fit : ∀ (h : List (ECall ℚ)) (x f : List (Fl ℚ)), InBox algDemo.lb algDemo.ub algDemo.nix x → algDemo.fit h x = .ok f → AllFin f := by
  intro h x f hx hf
  obtain ⟨h1, h2⟩ := hx
  obtain rfl : x.map (fun a => Fl.mul a a) = f := Except.ok.inj hf
  intro w hw
  obtain ⟨a, ha, rfl⟩ := List.mem_map.mp hw
  obtain ⟨i, hi, rfl⟩ := List.getElem_of_mem ha
  have hi0 : i = 0 := by have : x.length = 1 := h1; omega
  subst hi0
  obtain ⟨g1, g2, -⟩ := h2 0 (.fin 0) (.fin 10) x[0] rfl rfl (List.getElem?_eq_getElem hi)
  cases hx0 : x[0] with
  | fin a => exact ⟨a * a, rfl⟩
  | nan => rw [hx0] at g2; exact absurd g2 (by decide)
  | pinf => rw [hx0] at g2; exact absurd g2 (by decide)
  | ninf => rw [hx0] at g1; exact absurd g1 (by decide)

example (e : List ℚ) := C113_evolve_partial gaDemoEnv _ demoGen_lawful insSort_valid sgaRound_ok algDemo algDemo_finiteBox.bounds rfl rfl rfl (gaDemoPars true) (by decide)
  (by decide) (by decide) none (by simp) (gaDemoSt e) algDemo_inv (by simp [gaDemoSt, algDemoSt]) (by simp [gaDemoSt, algDemoSt, gaDemoPars]) gaDemoMem gaDemo_memOk (by simp [gaDemoMem]) 3 (by decide)

example (e : List ℚ) := C113_box gaDemoEnv _ _ gaDemo_fns _ demoGen_lawful insSort_valid sgaRound_ok algDemo algDemo_finiteBox rfl rfl (gaDemoPars true) (by decide)
  (by decide) (by decide) (by decide) 0 rfl none (by simp) (gaDemoSt e) algDemo_inv (gaDemo_fin e).1 (by simp [gaDemoSt, algDemoSt]) (by simp [gaDemoSt, algDemoSt, gaDemoPars]) gaDemoMem gaDemo_memOk
  (gaDemo_memNum _) 3 (by decide)

example (e : List ℚ) := C114_best_partial gaDemoEnv _ _ gaDemo_fns _ demoGen_lawful insSort_valid sgaRound_ok algDemo algDemo_finiteBox rfl rfl (gaDemoPars false) (by decide)
  (by decide) (by decide) (by decide) 0 rfl rfl none (by simp) gaDemo_fit (gaDemoSt e) algDemo_inv (gaDemo_fin e).1 (gaDemo_fin e).2.1 (gaDemo_fin e).2.2
  (by simp [gaDemoSt, algDemoSt]) (by simp [gaDemoSt, algDemoSt, gaDemoPars]) gaDemoMem rfl (gaDemo_memNum _) 0 rfl 3 (by decide)

example (e : List ℚ) := C114_memory_partial gaDemoEnv _ _ gaDemo_fns _ demoGen_lawful insSort_valid sgaRound_ok algDemo algDemo_finiteBox rfl rfl (gaDemoPars true) (by decide)
  (by decide) (by decide) (by decide) 0 rfl rfl none (by simp) gaDemo_fit (gaDemoSt e) algDemo_inv (gaDemo_fin e).1 (gaDemo_fin e).2.1 (gaDemo_fin e).2.2
  (by simp [gaDemoSt, algDemoSt]) (by simp [gaDemoSt, algDemoSt, gaDemoPars]) gaDemoMem gaDemo_memOk (by decide) (gaDemo_memNum _) 0 [] ⟨by simp, 0, rfl, Or.inl ⟨rfl, rfl, rfl⟩⟩ 3 (by decide)

/-- A run of two generations: the point 0 is found in the first one and kept. -/
example : (gaEvolve gaDemoEnv algDemo (gaDemoPars false) none 3 gaDemoMem (gaDemoSt [0, -1, 1, 1, 0, 1])).2.pop.f = [[.fin 0], [.fin 1], [.fin 4]] ∧
    ((gaEvolve gaDemoEnv algDemo (gaDemoPars false) none 3 gaDemoMem (gaDemoSt [0, -1, 1, 1, 0, 1])).2.evs.map Prod.fst).take 3 =
      [[.fin 0], [.fin 4], [.fin 2]] := by
  decide +kernel

/-- C114. The best of the last generation is lost: the only generation finds the minimum three times, the population keeps the old individuals. -/
theorem C114_last : let A : Gaco ℚ := { gaDemoPars false with gens := 1, threshold := 1 }
    let r := gaEvolve gaDemoEnv algDemo A none 2 gaDemoMem (gaDemoSt [0, -1, 0, -1, 0, -1])
    r.2.evs = List.replicate 3 ([.fin 0], .ok [.fin 0]) ∧ r.2.pop.f = [[.fin 1], [.fin 4], [.fin 9]] := by
  decide +kernel

/-- C114. If a criterion stops the run, the population is the last generation, and the best individual is lost, here after two of three generations. -/
theorem C114_stopped : let A : Gaco ℚ := { gaDemoPars false with gens := 3, impstop := 2 }
    let r := gaEvolve gaDemoEnv algDemo A none 4 gaDemoMem (gaDemoSt [0, 2, 0, 2, 0, 2, 0, 2, 0, 2, 0, 2])
    r.2.evs.length = 6 ∧ (gaDemoSt []).pop.f = [[.fin 9], [.fin 1], [.fin 4]] ∧ r.2.pop.f = [[.fin 9], [.fin 9], [.fin 9]] := by
  decide +kernel

/-- C114. With memory the population is the last generation; the archive has the best, the population does not. -/
theorem C114_memory_lost :
    let r := gaEvolve gaDemoEnv algDemo (gaDemoPars true) none 3 gaDemoMem (gaDemoSt [0, 2, 0, 2, 0, 2, 0, 2, 0, 2, 0, 2])
    r.2.pop.f = [[.fin 9], [.fin 9], [.fin 9]] ∧ ∃ m, r.1 = .ok m ∧ (m.arch.getD 0 []).drop 2 = [.fin 1] := by
  refine ⟨by decide +kernel, ?_⟩
  cases h : (gaEvolve gaDemoEnv algDemo (gaDemoPars true) none 3 gaDemoMem (gaDemoSt [0, 2, 0, 2, 0, 2, 0, 2, 0, 2, 0, 2])).1 with
  | ok m => exact ⟨m, rfl, by
      have : (match (gaEvolve gaDemoEnv algDemo (gaDemoPars true) none 3 gaDemoMem (gaDemoSt [0, 2, 0, 2, 0, 2, 0, 2, 0, 2, 0, 2])).1 with
        | .ok m => decide ((m.arch.getD 0 []).drop 2 = [.fin 1]) | _ => false) = true := by decide +kernel
      rw [h] at this
      simpa using this⟩
  | _ =>
    have : (match (gaEvolve gaDemoEnv algDemo (gaDemoPars true) none 3 gaDemoMem (gaDemoSt [0, 2, 0, 2, 0, 2, 0, 2, 0, 2, 0, 2])).1 with
        | .ok _ => true | _ => false) = true := by decide +kernel
    rw [h] at this
    cases this

/-- C114. A NaN fitness has the penalty 0: it comes before all points with an objective above the oracle. -/
theorem C114_nan : let A : Gaco ℚ := { gaDemoPars false with gens := 1, threshold := 1 }
    let s : St ℚ (List ℚ) := ⟨⟨[7, 8, 9], [[.fin 3], [.fin 1], [.fin 2]], [[.fin 9], [.nan], [.fin 4]], [.fin 2], [.fin 4], [], fun n => n, []⟩, [], []⟩
    (gaEvolve gaDemoEnv algDemo A none 2 gaDemoMem s).2.pop.f = [[.nan], [.fin 4], [.fin 9]] := by
  decide +kernel

/-- A problem with an inequality, met if `x` is at least 2. -/
def gaCon : AProb ℚ := { algDemo with info := { algDemo.info with nic := 1 }, fit := fun _ x => .ok (x.map (fun a => Fl.mul a a) ++ x.map (fun a => Fl.sub (.fin 2) a)) }

/-- With a constraint: the objective 1 does not meet it and comes last, although its penalty is below that of 9; the oracle is 5. -/
example : let s : St ℚ (List ℚ) :=
      ⟨⟨[7, 8, 9], [[.fin 3], [.fin 1], [.fin 2]], [[.fin 9, .fin (-1)], [.fin 1, .fin 1], [.fin 4, .fin 0]], [.fin 2], [.fin 4, .fin 0], [.fin 0], fun n => n, []⟩, [], []⟩
    (gaEvolve gaDemoEnv gaCon { gaDemoPars false with gens := 1, threshold := 1 } none 2 { gaDemoMem with oracle := .fin 5 } s).2.pop.f =
      [[.fin 4, .fin 0], [.fin 1, .fin 1], [.fin 9, .fin (-1)]] := by
  decide +kernel

end Verif.Props
