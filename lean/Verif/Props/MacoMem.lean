import Verif.Props.MacoRun

/-!
# C121, C122: the hypervolumes of `maco`, its memory, and examples
-/

set_option autoImplicit false

namespace Verif.Props

open Verif Run Prob Pop Alg Spec

variable {K σ : Type} [Field K] [LinearOrder K]

/-! ### C121: the hypervolumes -/

open Hv in
/-- C121. What the individuals of a front are ordered by, in exact arithmetic: the volume that only that individual covers, up to a reference point
that is `off` beyond the worst value in each objective. In two and three objectives this holds if no two individuals share the value of the first
objective. -/
theorem C121_hv_partial {low : ℝ} {srt : Srt ℝ} (hsrt : ValidSort srt) {srt2 : (Node ℝ → Node ℝ → Bool) → List (Node ℝ) → List (Node ℝ)} (hsrt2 : ValidSort srt2)
    {big : ℝ} {d : Nat} {pts : List (List ℝ)} (hp : SameDim d pts) (hlow : AboveLow low pts) (hap : d ≤ 3 → ApartX pts) {off : ℝ} (ho : 0 < off) :
    ∃ r, r.length = d ∧ (∀ i < d, (∀ p ∈ pts, p.getD i 0 + off ≤ r.getD i 0) ∧ ∃ p ∈ pts, p.getD i 0 + off = r.getD i 0) ∧
      maHv (RN low) srt srt2 big pts off = .ok ((List.range pts.length).map (exclVol d pts r)) := by
  obtain ⟨r, h1, h2, h3⟩ := C77_refpoint (low := low) hp off
  refine ⟨r, h2, h3, ?_⟩
  have hlt : ∀ p ∈ pts, ∀ i : Nat, i < d → p.getD i 0 < r.getD i 0 := fun p hm i hi => lt_of_lt_of_le (lt_add_of_pos_right _ ho) ((h3 i hi).1 p hm)
  have hbel : Spec.Below d pts r := ⟨h2, fun p hm => ⟨hp.2.2 p hm, fun i hi => (hlt p hm i hi).le⟩⟩
  have hd := hp.2.1
  have hc : Hv.construct (RN low) pts true = .ok pts := by
    unfold Hv.construct
    rw [if_pos rfl, (chk_construct (RN low) pts).ok_iff.mpr ⟨⟨d, hp⟩, fun _ _ _ _ => rfl⟩]
    rfl
  unfold maHv
  rw [hc, Outcome.bind_ok, h1, Outcome.bind_ok]
  exact C60_contributions_apart_partial hsrt hsrt2 hp hbel (fun p hm => ⟨0, by omega, hlt p hm 0 (by omega)⟩) hlow hap

/-- Non-vacuity: three points which do not dominate each other. -/
example : SameDim 3 [[1, 4, 1], [2, 3, 0], [3, 1, (1 : ℝ)]] ∧ AboveLow (-1) [[1, 4, 1], [2, 3, 0], [3, 1, (1 : ℝ)]] ∧ ApartX [[1, 4, 1], [2, 3, 0], [3, 1, (1 : ℝ)]] := by
  refine ⟨⟨by simp, by norm_num, by simp⟩, ?_, by simp [ApartX]⟩
  intro p hp a ha
  simp only [List.mem_cons, List.not_mem_nil, or_false] at hp
  rcases hp with rfl | rfl | rfl <;> simp only [List.mem_cons, List.not_mem_nil, or_false] at ha <;> rcases ha with rfl | rfl | rfl <;> norm_num

open Hv in
/-- C121. Two individuals of a front with three objectives and an infinite first one: the computation of the hypervolumes is undefined. -/
theorem C121_infinite : maHv (Num.ofFl (Fl.exact ℚ) (-1000)) insSort insSort (.fin 100000) [[.pinf, .fin 1, .fin 2], [.pinf, .fin 2, .fin 1]] (.fin (1 / 10)) = .ub := by
  decide +kernel

/-! ### C122: the memory -/

/-- neither an exception nor an endless loop -/
def MaMild {α : Type} (o : Outcome α) : Prop := o = .ub ∨ ∃ a, o = .ok a

theorem maMild_mapM {α β : Type} {f : α → Outcome β} (h : ∀ a, MaMild (f a)) : ∀ l : List α, l.mapM f = .ub ∨ ∃ bs, l.mapM f = .ok bs ∧ ∀ a ∈ l, ∃ b, f a = .ok b
  | [] => Or.inr ⟨[], by rfl, by simp⟩
  | a :: l => by
    rw [List.mapM_cons]
    rcases h a with h1 | ⟨b, h1⟩
    · rw [h1]; exact Or.inl rfl
    · rw [h1, Outcome.bind_ok]
      rcases maMild_mapM h l with h2 | ⟨bs, h2, h3⟩
      · rw [h2]; exact Or.inl rfl
      · rw [h2, Outcome.bind_ok]
        refine Or.inr ⟨_, rfl, fun c hc => ?_⟩
        rcases List.mem_cons.mp hc with rfl | hc
        · exact ⟨b, h1⟩
        · exact h3 c hc

theorem maMild_get {α : Type} (l : List α) (i : Nat) : MaMild (Outcome.get l i) := by
  by_cases h : i < l.length
  · exact Or.inr ⟨_, Outcome.get_of_lt h⟩
  · refine Or.inl ?_
    unfold Outcome.get
    rw [List.getElem?_eq_none (by omega)]

omit [Field K] [LinearOrder K] in
theorem maMild_slice (l : List (Fl K)) (i n : Nat) : MaMild (gaSlice l i n) := by
  by_cases h : i + n ≤ l.length
  · exact Or.inr ⟨_, gaSlice_ok h⟩
  · refine Or.inl ?_
    unfold gaSlice
    rw [if_neg h]

theorem maMild_bind {α β : Type} {o : Outcome α} {f : α → Outcome β} (h : MaMild o) (hf : ∀ a, MaMild (f a)) : MaMild (o >>= f) := by
  rcases h with h | ⟨a, h⟩
  · rw [h]; exact Or.inl rfl
  · rw [h, Outcome.bind_ok]; exact hf a

theorem maMild_old (P : AProb K) (arch : List (List (Fl K))) (j : Nat) : MaMild (maOld P arch j) :=
  maMild_bind (maMild_get _ _) fun _ => maMild_bind (maMild_slice _ _ _) fun _ => maMild_bind (maMild_slice _ _ _) fun _ => Or.inr ⟨_, rfl⟩

theorem maMild_new (P : AProb K) (xs fs : List (List (Fl K))) (j : Nat) : MaMild (maNew P xs fs j) :=
  maMild_bind (maMild_get _ _) fun _ => maMild_bind (maMild_slice _ _ _) fun _ => maMild_bind (maMild_get _ _) fun _ => maMild_bind (maMild_slice _ _ _) fun _ => Or.inr ⟨_, rfl⟩

theorem maGet_lt {α : Type} {l : List α} {i : Nat} {a : α} (h : Outcome.get l i = .ok a) : i < l.length := by
  by_contra h'
  unfold Outcome.get at h
  rw [List.getElem?_eq_none (by omega)] at h
  cases h

/-- C122. With memory, in a call after the first one, `evolve` reads beyond the end of an array, before it does anything else, if the members hold
fewer individuals than the population given, or an archive of fewer than `ker` rows. -/
theorem C122_undefined (v : MaEnv K σ) (P : AProb K) (hst : P.info.stochastic = false) (hnobj : 1 < P.info.nobj) (hnc : P.info.nc = 0) (A : Maco K)
    (hmem : A.memory = true) (hgens : A.gens ≠ 0) (bfe : Option (Batch K)) (s : St K σ) (hk0 : 0 < s.pop.id.length) (hk : A.ker ≤ s.pop.id.length) (m : MaMem K)
    (hc : 1 ≤ m.counter) (hc2 : m.counter + 1 < 2 ^ 32)
    (h : m.popX.length < s.pop.id.length ∨ m.popF.length < s.pop.id.length ∨ m.arch.length < A.ker) (fuel : Nat) :
    maEvolve v P A bfe (fuel + 1) m s = (.ub, s) := by
  have hnf : ¬ P.info.nf < 2 := by unfold Info.nf; omega
  have hcount : (maCount A m s.pop).popX = m.popX ∧ (maCount A m s.pop).popF = m.popF ∧ (maCount A m s.pop).arch = m.arch ∧ (maCount A m s.pop).counter > 1 := by
    unfold maCount
    rw [if_pos hmem, incU_eq hc2]
    dsimp only
    rw [if_neg (by omega)]
    exact ⟨rfl, rfl, rfl, by dsimp only; omega⟩
  have htop : ∀ arch, arch = m.arch → ∀ n, n = s.pop.id.length → ∀ gen, maTop v P A n gen (maCount A m s.pop) arch m.popX m.popF = .ub := by
    rintro _ rfl _ rfl gen
    have hfr : maFresh A (maCount A m s.pop) gen = false := by
      have : (maCount A m s.pop).counter ≠ 1 := by omega
      unfold maFresh
      rw [hmem]
      simp [this]
    unfold maTop
    rw [hfr, if_neg (by simp)]
    rcases maMild_mapM (maMild_old P m.arch) (List.range A.ker) with h1 | ⟨bs, h1, h2⟩
    · rw [h1]; rfl
    · rw [h1, Outcome.bind_ok]
      rcases maMild_mapM (maMild_new P m.popX m.popF) (List.range s.pop.id.length) with h3 | ⟨cs, h3, h4⟩
      · rw [h3]; rfl
      · exfalso
        rcases h with h | h | h
        · obtain ⟨b, hb⟩ := h4 m.popX.length (List.mem_range.mpr h)
          unfold maNew at hb
          obtain ⟨_, _, hb⟩ := bind_ok_inv hb
          obtain ⟨_, _, hb⟩ := bind_ok_inv hb
          obtain ⟨_, hb, _⟩ := bind_ok_inv hb
          exact absurd (maGet_lt hb) (by omega)
        · obtain ⟨b, hb⟩ := h4 m.popF.length (List.mem_range.mpr h)
          unfold maNew at hb
          obtain ⟨_, hb, _⟩ := bind_ok_inv hb
          exact absurd (maGet_lt hb) (by omega)
        · obtain ⟨b, hb⟩ := h2 m.arch.length (List.mem_range.mpr h)
          unfold maOld at hb
          obtain ⟨_, hb, _⟩ := bind_ok_inv hb
          exact absurd (maGet_lt hb) (by omega)
  unfold maEvolve
  show Run.bind _ _ _ = _
  unfold Run.bind
  dsimp only [Run.get]
  rw [if_neg (by omega), hst, if_neg (by simp), if_neg hgens, if_neg (by omega), if_neg (by omega), if_neg hnf]
  show Run.bind _ _ _ = _
  unfold Run.bind
  have hloop : genLoop (maGen v P A bfe s.pop.id.length) A.gens (fuel + 1) 1 (maInit P A m s.pop) s = (.ub, s) := by
    unfold genLoop
    rw [if_pos (by omega)]
    show Run.bind _ _ _ = _
    have hgen : maGen v P A bfe s.pop.id.length 1 (maInit P A m s.pop) s = (.ub, s) := by
      unfold maGen
      show Run.bind _ _ _ = _
      unfold Run.bind
      dsimp only [Run.get]
      rw [if_pos hmem, if_pos hmem, if_pos ⟨hmem, hcount.2.2.2⟩]
      show Run.bind _ _ _ = _
      unfold Run.bind
      dsimp only [maInit]
      rw [hcount.1, hcount.2.1, htop _ hcount.2.2.1 _ rfl]
      rfl
    unfold Run.bind
    rw [hgen]
  rw [hloop]

/-- C122. So after the algorithm was saved and loaded: the population of the last call is not among what is saved. -/
theorem C122_reload (v : MaEnv K σ) (P : AProb K) (hst : P.info.stochastic = false) (hnobj : 1 < P.info.nobj) (hnc : P.info.nc = 0) (A : Maco K)
    (hmem : A.memory = true) (hgens : A.gens ≠ 0) (bfe : Option (Batch K)) (s : St K σ) (hk0 : 0 < s.pop.id.length) (hk : A.ker ≤ s.pop.id.length) (m : MaMem K)
    (hc : 1 ≤ m.counter) (hc2 : m.counter + 1 < 2 ^ 32) (fuel : Nat) :
    maEvolve v P A bfe (fuel + 1) (maReload m) s = (.ub, s) :=
  C122_undefined v P hst hnobj hnc A hmem hgens bfe s hk0 hk (maReload m) hc hc2 (Or.inl (by show 0 < _; exact hk0)) fuel

/-- C122. So after a first call that was refused: the counter was increased, but there is no archive yet. -/
theorem C122_refused (v : MaEnv K σ) (P : AProb K) (hst : P.info.stochastic = false) (hnobj : 1 < P.info.nobj) (hnc : P.info.nc = 0) (A : Maco K)
    (hmem : A.memory = true) (hgens : A.gens ≠ 0) (hker : 0 < A.ker) (bfe : Option (Batch K)) (s : St K σ) (hk : A.ker ≤ s.pop.id.length)
    (m : MaMem K) (hm : m.counter = 0) (ha : m.arch = []) (p : Pop.State K) (fuel : Nat) :
    maEvolve v P A bfe (fuel + 1) (maCount A m p) s = (.ub, s) := by
  have h1 : (maCount A m p).counter = 1 ∧ (maCount A m p).arch = [] := by
    unfold maCount
    rw [if_pos hmem, hm]
    exact ⟨rfl, ha⟩
  exact C122_undefined v P hst hnobj hnc A hmem hgens bfe s (by omega) hk _ (by omega) (by omega) (Or.inr (Or.inr (by rw [h1.2]; exact hker))) fuel

section
variable [IsStrictOrderedRing K]

/-- C122. With memory, in the first call, the archive is filled anew in every generation: at the end of a run that was not stopped, the first `ker`
individuals are from the last generation but one, and all that was found before is lost. -/
theorem C122_first_call_partial (v : MaEnv K σ) (rep : K → Prop) (hg : v.g.Lawful rep) (hsrt : ValidSort v.srt) (hrd : RoundOk v.rd) (P : AProb K)
    (hv : HvSane v.hv P.info.nf) (hP : SaneBounds P.lb P.ub P.nix) (hnx : P.info.nx = P.lb.length) (hst : P.info.stochastic = false) (hnobj : 1 < P.info.nobj)
    (hnc : P.info.nc = 0) (A : Maco K) (hker : 2 ≤ A.ker) (hmem : A.memory = true)
    (hgens : A.gens + 1 < 2 ^ 32) (hgens0 : A.gens ≠ 0) (bfe : Option (Batch K)) (hok : ∀ b, bfe = some b → BatchOk P b)
    (s : St K σ) (hi : Inv P.info s.pop) (hk : A.ker ≤ s.pop.id.length) (m : MaMem K) (hm : m.counter = 0) (fuel : Nat) (hfuel : A.gens < fuel) :
    wp (maEvolve v P A bfe fuel m) (fun _ s' => ∃ G : List (List (List (Fl K) × List (Fl K))),
        (∀ g ∈ G, g.length = s.pop.id.length) ∧ s'.evs = s.evs ++ asCalls G.flatten ∧
        (G.length = A.gens → ∀ p ∈ (individuals s'.pop).take A.ker, p ∈ (individuals s.pop :: G.dropLast).getLastD []))
      (MaFailed v P (fun _ => True) bfe s) s := by
  have hmo : MaMemOk P A (fun _ => True) s.pop.id.length m := fun _ => ⟨by omega, fun h => absurd h (by omega)⟩
  refine (ma_run (C := fun _ => True) hg hsrt hrd hv hP hnx hst hnobj hnc hker (fun _ _ _ _ _ => trivial) hgens hgens0 hok hi (fun _ _ => trivial) hk
    hmo hfuel).mono ?_ (fun _ _ h => h)
  rintro r s' ⟨-, b, rfl, hcase⟩
  obtain ⟨hca, hcm⟩ := maCount_counter hmo s.pop
  have hc1 : A.memory = true → 1 ≤ (maSt (maInit P A m s.pop) 0 s).m.counter := by
    intro h
    have := (hcm h).1
    show 1 ≤ (maCount A m s.pop).counter
    omega
  rcases hcase with ⟨s1, hmid, hend⟩ | ⟨k, hk1, hk2, b1, u, z, check, m2, hmid, hhead, hstop, rfl⟩
  · obtain ⟨k, hk⟩ : ∃ k, A.gens = k + 1 := ⟨A.gens - 1, by omega⟩
    have hrun := hmid.run
    rw [hk] at hrun
    cases hrun with
    | snoc h hF =>
      rename_i c
      obtain ⟨g1, g0, g2, g3, G, hl, hn, he, hpop, -⟩ := maSteps_gens rfl hc1 _ _ h
      obtain ⟨-, hpb, -, hab, u, z, check, m2, sig, hw⟩ := hF
      refine ⟨G ++ [s1.pop.x.zip s1.pop.f], ?_, ?_, fun _ p hp => ?_⟩
      · intro g hg
        rcases List.mem_append.mp hg with h | h
        · exact hn g h
        · rw [List.mem_singleton.mp h, List.length_zip]
          have e1 : s1.pop.x.length = s.pop.id.length := hpb.xl
          have e2 : s1.pop.f.length = s.pop.id.length := hpb.fl
          omega
      · have := hw.ev
        rw [hend.evs, show s1.evs = c.evs ++ asCalls (s1.pop.x.zip s1.pop.f) from hw.ev, he, List.append_assoc]
        show s.evs ++ _ = _
        congr 1
        simp [asCalls, List.flatten_append]
      · have hbl : b.arch.length = A.ker := hab.1
        unfold individuals at hp
        rw [hend.x, hend.f, List.zip_append (by simp), List.take_append_of_le_length (by simp [hbl]), List.take_of_length_le (by simp [hbl])] at hp
        have hp' : ∃ r ∈ b.arch, p = maInd P r := by
          obtain ⟨i, hi, rfl⟩ := List.getElem_of_mem hp
          have hi' : i < b.arch.length := by simpa using hi
          exact ⟨b.arch[i], List.getElem_mem hi', by simp⟩
        obtain ⟨r, hr, rfl⟩ := hp'
        have hf := hw.from_ r hr
        have hcnt : c.m.counter = 1 := by
          rw [g2]
          show (maCount A m s.pop).counter = 1
          rw [(hcm hmem).1, hm]
        have hfr : maFresh A c.m (c.g + 1) = true := by
          unfold maFresh
          rw [hcnt, hmem]
          rfl
        unfold maCands at hf
        rw [if_pos hfr] at hf
        rw [List.dropLast_concat]
        by_cases hk0 : 0 < k
        · obtain ⟨_, _, e4, e5⟩ := g3 hk0
          rw [e4, e5, hpop] at hf
          rcases G.eq_nil_or_concat with rfl | ⟨G', g, rfl⟩
          · simp at hl; omega
          · simp only [List.concat_eq_append] at hf ⊢
            simp at hf
            rw [← List.cons_append, List.getLastD_concat]
            exact hf
        · have : k = 0 := by omega
          subst this
          have hG : G = [] := List.length_eq_zero_iff.mp hl
          subst hG
          cases h
          unfold maXs maFs at hf
          rw [if_pos hmem, if_pos hmem] at hf
          have e := (hcm hmem).2.1 hm
          have e1 : (maSt (maInit P A m s.pop) 0 s).m.popX = s.pop.x := e.1
          have e2 : (maSt (maInit P A m s.pop) 0 s).m.popF = s.pop.f := e.2
          rw [e1, e2] at hf
          exact hf
  · obtain ⟨g1, g0, g2, g3, G, hl, hn, he, hpop, -⟩ := maSteps_gens rfl hc1 _ _ hmid.run
    exact ⟨G, hn, he, fun h => absurd h (by omega)⟩

end

/-! ### Examples -/

/-- the hypervolumes of the library, with an exception where they are undefined -/
def maDemoHv (l : List (List (Fl ℚ))) (off : Fl ℚ) : Outcome (List (Fl ℚ)) :=
  match maHv (Hv.Num.ofFl (Fl.exact ℚ) (-1000)) insSort insSort (.fin 100000) l off with
  | .ok c => if c.length = l.length ∧ ∀ f ∈ l, Fl.nan ∉ f then .ok c else .throws .invalidArgument
  | _ => .throws .invalidArgument

theorem maDemoHv_sane (nf : Nat) : HvSane maDemoHv nf := by
  intro l off _ _
  unfold maDemoHv
  split
  · split
    · rename_i h
      exact Or.inl ⟨_, rfl, h.1, h.2⟩
    · exact Or.inr ⟨_, rfl⟩
  · exact Or.inr ⟨_, rfl⟩

def maDemoEnv : MaEnv ℚ (List ℚ) := { gaDemoEnv with hv := maDemoHv }

theorem maDemoEnv_sane : HvSane maDemoEnv.hv moDemo.info.nf := maDemoHv_sane _

/-- two generations, an archive of three rows -/
def maDemoPars (memory : Bool) : Maco ℚ := ⟨2, 3, 2, 7, 0, .fin 0, memory⟩

/-- the members after the constructor -/
def maDemoMem : MaMem ℚ := ⟨.fin 1, 0, [], 0, 1, [], []⟩

def maDemoSt (e : List ℚ) : St ℚ (List ℚ) := { moDemoSt with e := e }

theorem maDemo_len (e : List ℚ) : (maDemoSt e).pop.id.length = 8 := rfl

example : maCtor 2 3 (.fin (1 : ℚ)) 2 7 0 (.fin 0) true = .ok (maDemoPars true, maDemoMem) := by decide +kernel

example (e : List ℚ) := C119_throws maDemoEnv moDemo { maDemoPars false with ker := 9 } none 3 maDemoMem (maDemoSt e) (Or.inr (Or.inr ⟨by decide, Or.inl (by rw [maDemo_len]; decide)⟩))

section

attribute [local irreducible] wp

example (e : List ℚ) := C120_evolve_partial maDemoEnv _ demoGen_lawful insSort_valid sgaRound_ok moDemo maDemoEnv_sane moDemo_sane rfl rfl (by decide) rfl
  (maDemoPars true) (by decide) (fun _ => True) (fun _ _ _ _ _ => trivial) (by decide) (by decide) (some moBatch) (fun b h => by cases h; exact moBatch_ok) (maDemoSt e) moDemo_inv
  (fun _ _ => trivial) (by rw [maDemo_len]; decide) maDemoMem (fun _ => ⟨by decide, fun h => absurd h (by decide)⟩) 3 (by decide)

example (e : List ℚ) := C121_run_partial maDemoEnv _ demoGen_lawful insSort_valid sgaRound_ok moDemo maDemoEnv_sane moDemo_sane rfl rfl (by decide) rfl
  (maDemoPars false) (by decide) rfl (by decide) (by decide) none (by simp) (maDemoSt e) moDemo_inv (by rw [maDemo_len]; decide) maDemoMem 3 (by decide)

example (e : List ℚ) := C121_best_partial maDemoEnv _ demoGen_lawful insSort_valid sgaRound_ok moDemo maDemoEnv_sane moDemo_sane rfl rfl (by decide) rfl
  (maDemoPars false) (by decide) (by decide) rfl (by decide) (by decide) none (by simp) (maDemoSt e) moDemo_inv (by rw [maDemo_len]; decide) maDemoMem 3 (by decide)

example (e : List ℚ) := C122_stop_partial maDemoEnv _ demoGen_lawful insSort_valid sgaRound_ok moDemo maDemoEnv_sane moDemo_sane rfl rfl (by decide) rfl
  { maDemoPars false with evalstop := 1 } (by decide) (by decide) rfl (by decide) (by decide) none (by simp) (maDemoSt e) moDemo_inv (by rw [maDemo_len]; decide) maDemoMem 3 (by decide)

example (e : List ℚ) := C122_first_call_partial maDemoEnv _ demoGen_lawful insSort_valid sgaRound_ok moDemo maDemoEnv_sane moDemo_sane rfl rfl (by decide) rfl
  (maDemoPars true) (by decide) rfl (by decide) (by decide) none (by simp) (maDemoSt e) moDemo_inv (by rw [maDemo_len]; decide) maDemoMem rfl 3 (by decide)

end

/-- the members after a call -/
def maOut (r : Outcome (MaMem ℚ × List (List (Fl ℚ))) × St ℚ (List ℚ)) : MaMem ℚ := match r.1 with
  | .ok a => a.1
  | _ => maDemoMem

/-- the ideal points logged -/
def maLog (r : Outcome (MaMem ℚ × List (List (Fl ℚ))) × St ℚ (List ℚ)) : List (List (Fl ℚ)) := match r.1 with
  | .ok a => a.2
  | _ => []

example (e : List ℚ) := C122_reload maDemoEnv moDemo rfl (by decide) rfl (maDemoPars true) rfl (by decide) none (maDemoSt e) (by rw [maDemo_len]; decide) (by rw [maDemo_len]; decide)
  { maDemoMem with counter := 1 } (by decide) (by decide) 2

example (e : List ℚ) (p : Pop.State ℚ) := C122_refused maDemoEnv moDemo rfl (by decide) rfl (maDemoPars true) rfl (by decide) (by decide) none (maDemoSt e) (by rw [maDemo_len]; decide)
  maDemoMem rfl rfl p 2

/-- A run of two generations with the hypervolumes of the library; the second one knows the point with the objectives 1 and 16. -/
example : (maEvolve maDemoEnv moDemo (maDemoPars false) none 3 maDemoMem (maDemoSt [0, -1, 1, 1, 0, 1])).2.pop.f =
    [[.fin 5, .fin 0], [.fin 5, .fin 0], [.fin 1, .fin 16], [.fin 5, .fin 0], [.fin 5, .fin 0], [.fin 5, .fin 0], [.fin 5, .fin 0], [.fin 5, .fin 0]] := by
  decide +kernel

/-- C121. The point logged in the first generation is not the ideal one: the archive holds an individual with 1 as first objective, but 2 is logged. -/
theorem C121_first_log : let r := maEvolve maDemoEnv moDemo { maDemoPars false with gens := 1, threshold := 1 } none 2 maDemoMem (maDemoSt [])
    maLog r = [[.fin 2, .fin 0]] ∧ [.fin 1, .fin 16] ∈ r.2.pop.f.take 3 ∧ [.fin 1, .fin 16] ∈ moDemoSt.pop.f := by
  decide +kernel

/-- the identity on two variables -/
def maPlain : AProb ℚ := ⟨⟨2, 2, 0, 0, false⟩, [.fin 0, .fin 0], [.fin 101, .fin 1], 0, fun _ x => .ok x⟩

/-- three individuals, none of which dominates another -/
def maPlainSt : St ℚ (List ℚ) :=
  let xs : List (List (Fl ℚ)) := [[.fin 0, .fin (3 / 100)], [.fin 100, .fin (2 / 100)], [.fin 101, .fin (1 / 100)]]
  ⟨⟨[1, 2, 3], xs, xs, [], [], [], fun n => n, []⟩, [], []⟩

/-- C121. An archive of three rows and three individuals, none of which dominates another: one of them is stored twice and one is lost. -/
theorem C121_lost : (maEvolve maDemoEnv maPlain { maDemoPars false with gens := 1, threshold := 1 } none 2 maDemoMem maPlainSt).2.pop.f =
    [[.fin 0, .fin (3 / 100)], [.fin 101, .fin (1 / 100)], [.fin 0, .fin (3 / 100)]] ∧ ([.fin 100, .fin (2 / 100)] : List (Fl ℚ)) ∈ maPlainSt.pop.f := by
  decide +kernel

/-- C122. With `evalstop` 1 a run of at most three generations stops after the first one, since it found a better value of the first objective; the
archive is lost, and with it the individual with 0 as second objective. -/
theorem C122_stopped : let r := maEvolve maDemoEnv moDemo { maDemoPars false with gens := 3, evalstop := 1 } none 4 maDemoMem (maDemoSt [0, -2, 0, 0])
    r.2.evs.length = 8 ∧ r.2.pop.f = [.fin 0, .fin 16] :: List.replicate 7 [.fin 2, .fin 4] ∧ [.fin 5, .fin 0] ∈ moDemoSt.pop.f := by
  decide +kernel

/-- C122. With the same `evalstop` a run that finds nothing better goes on for all of its four generations. -/
theorem C122_stagnates : let r := maEvolve maDemoEnv moDemo { maDemoPars false with gens := 4, evalstop := 1 } none 5 maDemoMem (maDemoSt [0, 1, 0, 1])
    r.2.evs.length = 32 ∧ (maLog r).drop 1 = List.replicate 3 [.fin 1, .fin 0] := by
  decide +kernel

/-- C122. With memory the best values are lost in the first call: the smallest second objective is 0 before and 4 after it. -/
theorem C122_memory_loses : let r := maEvolve maDemoEnv moDemo (maDemoPars true) none 3 maDemoMem (maDemoSt [0, -2, 1, 1, 0, 1])
    [.fin 5, .fin 0] ∈ moDemoSt.pop.f ∧ r.2.pop.f = [[.fin 1, .fin 16], [.fin 2, .fin 4], [.fin 1, .fin 16], [.fin 1, .fin 16], [.fin 1, .fin 16], [.fin 1, .fin 16],
      [.fin 1, .fin 16], [.fin 1, .fin 16]] := by
  decide +kernel

/-- C122. With memory, a second call with a larger population is undefined. -/
theorem C122_larger : let r := maEvolve maDemoEnv maPlain { maDemoPars true with gens := 1, threshold := 1 } none 2 maDemoMem maPlainSt
    (maOut r).counter = 1 ∧
      (maEvolve maDemoEnv moDemo { maDemoPars true with gens := 1, threshold := 1 } none 2 (maOut r) (maDemoSt [])).1 = .ub := by
  decide +kernel

/-- C122. An archive of no or of one row is accepted by the constructor; a run with it is undefined. -/
theorem C122_small_ker : (maEvolve maDemoEnv moDemo { maDemoPars false with ker := 0 } none 3 maDemoMem (maDemoSt [])).1 = .ub ∧
    (maEvolve maDemoEnv moDemo { maDemoPars false with ker := 1 } none 3 maDemoMem (maDemoSt [])).1 = .ub := by
  decide +kernel

/-! ### The counter of generations without improvement -/

/-- whatever `m` returns satisfies `Q` -/
def MaOk {τ α : Type} (m : Run τ α) (Q : α → Prop) : Prop := ∀ s a s', m s = (.ok a, s') → Q a

theorem MaOk.bind {τ α β : Type} {m : Run τ α} {f : α → Run τ β} {Q : α → Prop} {R : β → Prop} (hm : MaOk m Q) (hf : ∀ a, Q a → MaOk (f a) R) :
    MaOk (m >>= f) R := by
  intro s b s' h
  change Run.bind m f s = _ at h
  unfold Run.bind at h
  rcases hms : m s with ⟨_ | _ | _ | _, s1⟩ <;> rw [hms] at h
  · exact hf _ (hm s _ s1 hms) s1 b s' h
  all_goals cases h

theorem MaOk.any {τ α : Type} (m : Run τ α) : MaOk m (fun _ => True) := fun _ _ _ _ => trivial

theorem MaOk.pure {τ α : Type} {Q : α → Prop} {a : α} (h : Q a) : MaOk (Pure.pure a : Run τ α) Q := by
  intro s b s' e
  cases e; exact h

omit [Field K] [LinearOrder K] in
theorem MaOk.genLoop {β : Type} {f : Nat → β → Run (St K σ) (β × Bool)} {Q : β → Prop} (hf : ∀ g b, Q b → MaOk (f g b) (fun r => Q r.1)) (gens : Nat) :
    ∀ (fuel g : Nat) (b : β), Q b → MaOk (Alg.genLoop f gens fuel g b) Q := by
  intro fuel
  induction fuel with
  | zero => intro g b _ s a s' h; cases h
  | succ n ih =>
    intro g b hb
    unfold Alg.genLoop
    split
    · exact (hf g b hb).bind (fun r hr => by
        split
        · exact MaOk.pure hr
        · exact ih _ _ hr)
    · exact MaOk.pure hb

/-- the range of the counter -/
def MaMark (A : Maco K) (m : MaMem K) : Prop := 1 ≤ m.mark ∧ m.mark ≤ max 1 A.nGenMark

theorem maMark_gen (v : MaEnv K σ) (P : AProb K) (A : Maco K) (hA : A.nGenMark + 1 < 2 ^ 32) (bfe : Option (Batch K)) (n gen : Nat) (b : MaVars K)
    (hb : MaMark A b.m) : MaOk (maGen v P A bfe n gen b) (fun r => MaMark A r.1.m) := by
  have hkeep : ∀ (m : MaMem K) a, MaMark A m → MaMark A (maKeep A m a) := by
    intro m a h; unfold maKeep; split <;> exact h
  have hite : ∀ (c : Bool) (m : MaMem K) a, MaMark A m → MaMark A (if c then maKeep A m a else m) := by
    intro c m a h; split
    · exact hkeep m a h
    · exact h
  have hcount : ∀ (m : MaMem K) c, MaMark A m → MaMark A (maCounters A m c) := by
    intro m c ⟨h1, h2⟩
    have hk : ∀ k : Nat, 1 ≤ k → MaMark A { m with mark := if k > A.nGenMark then 1 else k } := by
      intro k hk
      unfold MaMark
      dsimp only
      split <;> omega
    have hinc : incU m.mark = m.mark + 1 := incU_eq (by omega)
    have hpos : ∀ (q : Prop) [Decidable q], 1 ≤ if q then incU m.mark else m.mark := by
      intro q _; rw [hinc]; split <;> omega
    unfold maCounters
    dsimp only
    have := hk (if (if c then incU m.nEval else 0) = 0 ∨ (if c then incU m.nEval else 0) > 2 then incU m.mark else m.mark) (hpos _)
    exact this
  unfold maGen
  refine (MaOk.any _).bind (fun s _ => (MaOk.any _).bind (fun u _ => (MaOk.any _).bind (fun z _ => ?_)))
  dsimp only
  generalize hm2 : maCounters A _ z.2 = m2
  have h2 : MaMark A m2 := by
    rw [← hm2]; exact hcount _ z.2 (hite (maFresh A b.m gen) b.m u.arch hb)
  split
  · exact MaOk.pure h2
  · refine (MaOk.any _).bind (fun arch _ => ?_)
    have h3 := hite (maLater A m2 gen) _ arch h2
    refine (MaOk.any _).bind (fun sig _ => (MaOk.any _).bind (fun ants _ => (MaOk.any _).bind (fun _ _ => (MaOk.any _).bind (fun s' _ => ?_))))
    refine MaOk.pure ?_
    show MaMark A (if A.memory = true then _ else _)
    by_cases hmem : A.memory = true
    · rw [if_pos hmem]; exact h3
    · rw [if_neg hmem]; exact h3

/-- C122. `n_gen_mark` limits the counter that the width of the normal distributions is divided by: in all calls and generations it is between 1 and
`n_gen_mark` (or 1). -/
theorem C122_mark (v : MaEnv K σ) (P : AProb K) (A : Maco K) (hA : A.nGenMark + 1 < 2 ^ 32) (bfe : Option (Batch K)) (fuel : Nat) (m m' : MaMem K)
    (log : List (List (Fl K))) (s s' : St K σ) (hm : 1 ≤ m.mark ∧ m.mark ≤ max 1 A.nGenMark) (h : maEvolve v P A bfe fuel m s = (.ok (m', log), s')) :
    1 ≤ m'.mark ∧ m'.mark ≤ max 1 A.nGenMark := by
  have hc : ∀ p : Pop.State K, MaMark A (maCount A m p) := by
    intro p
    unfold maCount
    split
    · dsimp only; split <;> exact hm
    · exact hm
  have key : MaOk (maEvolve v P A bfe fuel m) (fun r => MaMark A r.1) := by
    unfold maEvolve
    refine (MaOk.any _).bind (fun s0 _ => ?_)
    dsimp only
    repeat' split
    all_goals first
      | exact MaOk.pure (hc _)
      | (intro s a s' h; cases h)
      | skip
    refine (MaOk.genLoop (Q := fun b : MaVars K => MaMark A b.m) (fun g b hb => maMark_gen v P A hA bfe _ g b hb) _ _ _ _ (hc _)).bind (fun b hb => ?_)
    split
    · exact (MaOk.any _).bind (fun _ _ => MaOk.pure hb)
    · exact MaOk.pure hb
  exact key s _ s' h

example : (maOut (maEvolve maDemoEnv moDemo { maDemoPars false with gens := 4, evalstop := 1 } none 5 maDemoMem (maDemoSt [0, 1, 0, 1]))).mark = 5 := by
  decide +kernel

end Verif.Props
