import Verif.Model.Annealing
import Verif.Props.De
import Verif.Props.Random

/-!
# Helper lemmas for `Verif.Props.Annealing`
-/

set_option autoImplicit false

namespace Verif.Props

open Verif Run Prob Pop Alg

variable {K σ : Type} [Field K] [LinearOrder K]

/-- `uniform_real_from_range` for any two numbers -/
theorem wp_uniformAny {g : Gen K σ} {rep : K → Prop} {op : Fl.Ops K} (hg : g.Lawful rep) (lo hi : Fl K) {Q : Fl K → σ → Prop}
    {E : Exn → σ → Prop} {s : σ}
    (hq : ∀ a b w s', lo = .fin a → hi = .fin b → a ≤ w → w ≤ b → Q (.fin w) s')
    (he : (∀ a b, lo = .fin a → hi = .fin b → a ≤ b → (op.sub (.fin b) (.fin a)).isFinite = true → False) → E .invalidArgument s) :
    wp (Rnd.uniformRealFromRange g op lo hi) Q E s := by
  unfold Rnd.uniformRealFromRange Rnd.uniformReal
  rw [wp_bind]
  unfold Rnd.realChecks
  by_cases h1 : (!lo.isFinite || !hi.isFinite) = true
  · rw [if_pos (by simpa using h1), wp_lift_throws]
    refine he (fun a b e1 e2 _ _ => ?_)
    subst e1 e2
    simp [Fl.isFinite] at h1
  · simp only [Bool.or_eq_true, Bool.not_eq_true', not_or, Bool.not_eq_false] at h1
    obtain ⟨a, rfl⟩ := fin_of_finite h1.1
    obtain ⟨b, rfl⟩ := fin_of_finite h1.2
    rw [if_neg (by simp [Fl.isFinite])]
    by_cases h2 : b < a
    · rw [if_pos (by simpa [Fl.gt, Fl.lt] using h2), wp_lift_throws]
      refine he (fun a' b' e1 e2 h _ => ?_)
      cases e1; cases e2
      exact absurd h2 (not_lt.mpr h)
    · rw [if_neg (by simpa [Fl.gt, Fl.lt] using h2)]
      by_cases h3 : (op.sub (.fin b) (.fin a)).isFinite = true
      · rw [if_neg (by simp [h3]), wp_lift_ok, wp_ite]
        refine ⟨fun _ => ?_, fun _ => ?_⟩
        · rw [wp_pure]; exact hq a b a s rfl rfl le_rfl (not_lt.mp h2)
        · exact Gen.wp_drawReal hg (not_lt.mp h2) h3 (fun w s' h4 h5 => hq a b w s' rfl rfl h4 h5)
      · rw [if_pos (by simpa using h3), wp_lift_throws]
        refine he (fun a' b' e1 e2 _ h => ?_)
        cases e1; cases e2
        exact h3 h

omit [Field K] in
theorem stdMax_ge {a l : Fl K} {lo : K} (hl : l ≠ .nan) (h : Fl.stdMax a l = .fin lo) : l ≤ .fin lo := by
  unfold Fl.stdMax at h
  split at h
  · rw [h]
  · rename_i hlt
    subst h
    rw [Fl.lt_iff (by simp) hl] at hlt
    exact not_lt.mp hlt

omit [Field K] in
theorem stdMin_le {a u : Fl K} {hi : K} (hu : u ≠ .nan) (h : Fl.stdMin a u = .fin hi) : Fl.fin hi ≤ u := by
  unfold Fl.stdMin at h
  split at h
  · rw [h]
  · rename_i hlt
    subst h
    rw [Fl.lt_iff hu (by simp)] at hlt
    exact not_lt.mp hlt

/-- What is needed of the arithmetic for simulated annealing to go through: no overflow, and rounding does not turn
things around. -/
structure SaNum (v : SaEnv K σ) (P : AProb K) (A : Sa K) : Prop where
  finL : AllFin P.lb
  finU : AllFin P.ub
  start : ∃ r, A.start = .fin r ∧ 0 ≤ r
  width : ∀ (l u s : K), .fin l ∈ P.lb → .fin u ∈ P.ub → l ≤ u → 0 ≤ s →
    ∃ w, v.op.mul (.fin s) (v.op.sub (.fin u) (.fin l)) = .fin w ∧ 0 ≤ w
  range : ∀ (l u x w : K), .fin l ∈ P.lb → .fin u ∈ P.ub → l ≤ x → x ≤ u → 0 ≤ w →
    ∃ a b, v.op.sub (.fin x) (.fin w) = .fin a ∧ v.op.add (.fin x) (.fin w) = .fin b ∧ a ≤ b ∧ a ≤ u ∧ l ≤ b
  diff : ∀ a b : K, (v.op.sub (.fin b) (.fin a)).isFinite = true
  step : ∀ (s : K) (a : Nat), 0 ≤ s → a ≤ A.bin → ∃ s', saStep v A (.fin s) a = .fin s' ∧ 0 ≤ s'

/-- `std::exp`, differences and quotients of NaN are NaN. -/
structure SaNan (v : SaEnv K σ) : Prop where
  ex : v.ex .nan = .nan
  div : ∀ a, v.op.div .nan a = .nan
  subL : ∀ a, v.op.sub .nan a = .nan
  subR : ∀ a, v.op.sub a .nan = .nan

/-- `simulated_annealing::evolve` ended with an exception. -/
def SaFailed (N : Prop) (P : AProb K) (A : Sa K) (s0 : St K σ) (e : Exn) (s : St K σ) : Prop :=
  ∃ new, s.evs = s0.evs ++ new ∧ (∀ p ∈ new, InBox P.lb P.ub 0 p.1) ∧
    (UserFault P s.evs e ∨ e = .badAlloc ∧ s0.pop.faults ≠ [] ∨
      e = .invalidArgument ∧ (∃ k, (A.select = .index k ∨ A.replace = .index k) ∧ s0.pop.id.length ≤ k) ∨
      e = .invalidArgument ∧ ¬ N)

/-- Order of the objectives: `a` of the current point, `b` of the best one, `a0` of the selected individual. -/
structure SaOrd (a0 : Fl K) (new : List (ECall K)) (a b : Fl K) : Prop where
  cur : b ≤ a
  init : b ≤ a0
  sane : a0 ≠ .nan → a ≠ .nan
  nan : a0 = .nan → a = .nan ∧ b = .nan
  all : a0 ≠ .nan → ∀ p ∈ new, ∀ f : Fl K, p.2 = .ok [f] → b ≤ f

/-- invariant of the annealing loops; `k i` bounds the counter of component `i` -/
structure SaInv (N : Prop) (P : AProb K) (s0 : St K σ) (x0 : List (Fl K)) (a0 : Fl K) (k : Nat → Nat) (c : SVars K)
    (new : List (ECall K)) (s : St K σ) : Prop where
  tr : Tracked P s0 new s
  pop : s.pop = s0.pop
  same : c.xNew = c.xOld
  box : InBox P.lb P.ub 0 c.xOld
  ord : ∃ a b, c.fOld = [a] ∧ c.bestF = [b] ∧ SaOrd a0 new a b
  src : (c.bestX, c.bestF) = (x0, [a0]) ∨ (c.bestX, Except.ok c.bestF) ∈ new
  nx0 : x0.length = P.info.nx
  nbest : c.bestX.length = P.info.nx
  nstep : c.step.length = P.info.nx
  nacp : c.acp.length = P.info.nx
  steps : N → ∀ w ∈ c.step, ∃ r, w = .fin r ∧ 0 ≤ r
  acps : ∀ (i a : Nat), c.acp[i]? = some a → a ≤ k i

theorem saInv_rng {N : Prop} {P : AProb K} {s0 s : St K σ} {x0 : List (Fl K)} {a0 : Fl K} {k : Nat → Nat} {c : SVars K}
    {new : List (ECall K)} (h : SaInv N P s0 x0 a0 k c new s) (e : σ) : SaInv N P s0 x0 a0 k c new { s with e := e } :=
  { h with tr := tracked_rng h.tr e, pop := h.pop }

theorem saInv_bound {N : Prop} {P : AProb K} {s0 s : St K σ} {x0 : List (Fl K)} {a0 : Fl K} {k k' : Nat → Nat} {c : SVars K}
    {new : List (ECall K)} (h : SaInv N P s0 x0 a0 k c new s) (hk : ∀ i, k i ≤ k' i) : SaInv N P s0 x0 a0 k' c new s :=
  { h with acps := fun i a ha => (h.acps i a ha).trans (hk i) }

theorem saAccept_ok {c : SVars K} {i : Nat} {f : List (Fl K)} {x : List (Fl K)} {w : Fl K} {k : Nat → Nat}
    (hx : c.xNew = x.set i w) (ho : c.xOld = x) (hi : i < x.length) (hn : i < c.acp.length)
    (hk : ∀ (i a : Nat), c.acp[i]? = some a → a ≤ k i) (hlt : k i < 2 ^ 31 - 1) :
    ∃ acp, saAccept c i f = .ok { c with xOld := x.set i w, fOld := f, acp := acp } ∧ acp.length = c.acp.length ∧
      ∀ (j a : Nat), acp[j]? = some a → a ≤ Function.update k i (k i + 1) j := by
  refine ⟨c.acp.set i (c.acp[i] + 1), ?_, by simp, ?_⟩
  · have h1 := hk i _ (List.getElem?_eq_getElem hn)
    unfold saAccept incAcp
    rw [Outcome.get_of_lt (l := c.xNew) (by rw [hx]; simpa using hi), Outcome.bind_ok, Outcome.set_of_lt (by rw [ho]; exact hi),
      Outcome.bind_ok, Outcome.get_of_lt hn, Outcome.bind_ok, if_neg (by omega), Outcome.set_of_lt hn, Outcome.bind_ok]
    simp [hx, ho]
  · intro j a ha
    rw [List.getElem?_set] at ha
    by_cases e : i = j
    · subst e
      rw [if_pos rfl, if_pos hn] at ha
      cases ha
      have h1 := hk i _ (List.getElem?_eq_getElem hn)
      simp only [Function.update_self]; omega
    · rw [if_neg e] at ha
      rw [Function.update_of_ne (Ne.symm e)]
      exact hk j a ha

section
variable [IsStrictOrderedRing K]
variable {N : Prop} {v : SaEnv K σ} {P : AProb K} {s0 : St K σ} {x0 : List (Fl K)} {a0 : Fl K} {rep : K → Prop}

/-- one move: propose, evaluate, decide -/
theorem wp_saDecide (hg : v.g.Lawful rep) (hn : SaNan v) {k : Nat → Nat} {c : SVars K} {new : List (ECall K)} {s : St K σ} {i : Nat} {w f : Fl K}
    (hnx : P.info.nx = P.lb.length)
    (h : SaInv N P s0 x0 a0 k c new s) (hi : i < P.info.nx) (hlt : k i < 2 ^ 31 - 1) (hbx : InBox P.lb P.ub 0 (c.xOld.set i w))
    {s' : St K σ} (hp : s'.pop = s.pop) (ht : Tracked P s0 (new ++ [(c.xOld.set i w, .ok [f])]) s')
    {E : Exn → St K σ → Prop} :
    wp (saDecide v { c with xNew := c.xOld.set i w } i [f])
      (fun c' s'' => SaInv N P s0 x0 a0 (Function.update k i (k i + 1)) c' (new ++ [(c.xOld.set i w, .ok [f])]) s'') E s' := by
  obtain ⟨a, b, ha, hb, ord⟩ := h.ord
  have hxl : i < c.xOld.length := by rw [h.box.1, ← hnx]; exact hi
  have hacp : i < c.acp.length := by rw [h.nacp]; exact hi
  obtain ⟨acp, hacc, hal, hak⟩ := saAccept_ok (c := { c with xNew := c.xOld.set i w }) (f := [f]) (x := c.xOld) rfl rfl hxl hacp h.acps hlt
  have hkk : ∀ j, k j ≤ Function.update k i (k i + 1) j := by
    intro j
    by_cases e : j = i
    · subst e; simp
    · rw [Function.update_of_ne e]
  have hsrc : (c.bestX, c.bestF) = (x0, [a0]) ∨ (c.bestX, Except.ok c.bestF) ∈ new ++ [(c.xOld.set i w, Except.ok [f])] :=
    h.src.imp id (fun h => List.mem_append_left _ h)
  unfold saDecide
  rw [wp_bind, wp_lift_get (by simp), wp_bind]
  simp only [ha]
  rw [wp_lift_get (by simp)]
  simp only [List.getElem_cons_zero]
  rw [wp_ite]
  constructor
  · intro hle
    rw [fl_le_iff] at hle
    obtain ⟨hf, hna, hle⟩ := hle
    have hna0 : a0 ≠ .nan := fun e => hna (ord.nan e).1
    unfold saDescend
    rw [ha] at hacc
    rw [hacc, Outcome.bind_ok]
    simp only [hb]
    rw [Outcome.get_of_lt (by simp), Outcome.bind_ok, wp_lift_ok]
    simp only [List.getElem_cons_zero]
    have hbn : b ≠ .nan := by
      intro e; rw [e] at ord
      have := ord.cur
      cases a <;> simp_all [Fl.le_def, Fl.cls]
    by_cases hfb : f ≤ b
    · rw [if_pos (fl_le_iff.mpr ⟨hf, hbn, hfb⟩)]
      refine ⟨ht, hp.trans h.pop, rfl, hbx, ⟨f, f, rfl, rfl, ⟨le_rfl, hfb.trans ord.init, fun _ => hf, fun e => absurd e hna0, ?_⟩⟩,
        Or.inr (by simp), h.nx0, by simpa [← hnx] using hbx.1, h.nstep, hal.trans h.nacp, h.steps, hak⟩
      intro _ p hp g hg
      rcases List.mem_append.mp hp with hp | hp
      · exact hfb.trans (ord.all hna0 p hp g hg)
      · rw [List.mem_singleton.mp hp] at hg; cases hg; exact le_rfl
    · rw [if_neg (fun h => hfb (fl_le_iff.mp h).2.2)]
      have hbf := (not_le.mp hfb).le
      refine ⟨ht, hp.trans h.pop, rfl, hbx, ⟨f, b, rfl, rfl, ⟨hbf, ord.init, fun _ => hf, fun e => absurd e hna0, ?_⟩⟩,
        hb ▸ hsrc, h.nx0, h.nbest, h.nstep, hal.trans h.nacp, h.steps, hak⟩
      intro _ p hp g hg
      rcases List.mem_append.mp hp with hp | hp
      · exact ord.all hna0 p hp g hg
      · rw [List.mem_singleton.mp hp] at hg; cases hg; exact hbf
  · intro hle
    have hbf : a0 ≠ .nan → b ≤ f := by
      intro hna0
      by_cases hf : f = .nan
      · rw [hf]; simp
      · have hna := ord.sane hna0
        have : ¬ f ≤ a := fun h => hle (fl_le_iff.mpr ⟨hf, hna, h⟩)
        exact ord.cur.trans (not_le.mp this).le
    have hall : a0 ≠ .nan → ∀ p ∈ new ++ [(c.xOld.set i w, Except.ok [f])], ∀ g : Fl K, p.2 = .ok [g] → b ≤ g := by
      intro hna0 p hp g hg
      rcases List.mem_append.mp hp with hp | hp
      · exact ord.all hna0 p hp g hg
      · rw [List.mem_singleton.mp hp] at hg; cases hg; exact hbf hna0
    unfold saBoltzmann
    rw [wp_bind, wp_onRng]
    refine Gen.wp_draw01 hg (fun u e _ _ => ?_)
    split
    · rename_i hgt
      have hfa : f ≠ .nan ∧ a ≠ .nan := by
        constructor
        · rintro rfl
          rw [hn.subR] at hgt
          simp [Fl.neg, Fl.abs, hn.div, hn.ex, Fl.gt, Fl.lt] at hgt
        · rintro rfl
          rw [hn.subL] at hgt
          simp [Fl.neg, Fl.abs, hn.div, hn.ex, Fl.gt, Fl.lt] at hgt
      rw [ha] at hacc
      rw [hacc, wp_lift_ok]
      refine ⟨tracked_rng ht e, hp.trans h.pop, rfl, hbx, ⟨f, b, rfl, hb, ⟨?_, ord.init, fun _ => hfa.1, fun e => absurd (ord.nan e).1 hfa.2, hall⟩⟩,
        hsrc, h.nx0, h.nbest, h.nstep, hal.trans h.nacp, h.steps, hak⟩
      exact hbf (fun e => hfa.2 (ord.nan e).1)
    · unfold saReject
      rw [Outcome.get_of_lt hxl, Outcome.bind_ok, Outcome.set_of_lt (by simpa using hxl), Outcome.bind_ok, wp_lift_ok]
      refine ⟨tracked_rng ht e, hp.trans h.pop, ?_, h.box, ⟨a, b, rfl, hb, ⟨ord.cur, ord.init, ord.sane, ord.nan, hall⟩⟩,
        hsrc, h.nx0, h.nbest, h.nstep, h.nacp, h.steps, fun j a ha => (h.acps j a ha).trans (hkk j)⟩
      simp

theorem wp_saMove {A : Sa K} (hg : v.g.Lawful rep) (hP : SaneBounds P.lb P.ub P.nix) (hnx : P.info.nx = P.lb.length)
    {k : Nat → Nat} {c : SVars K} {new : List (ECall K)} {s : St K σ} {i : Nat}
    (h : SaInv (SaNum v P A) P s0 x0 a0 k c new s) (hi : i < P.info.nx) {Q : List (Fl K) → St K σ → Prop}
    {E : Exn → St K σ → Prop}
    (hq : ∀ w e, InBox P.lb P.ub 0 (c.xOld.set i w) → Q (c.xOld.set i w) { s with e := e })
    (he : ¬ SaNum v P A → E .invalidArgument s) : wp (saMove v P c i) Q E s := by
  have hl : i < P.lb.length := by omega
  have hu : i < P.ub.length := by rw [← hP.len]; exact hl
  have hx : i < c.xOld.length := by rw [h.box.1]; exact hl
  have hs : i < c.step.length := by rw [h.nstep]; exact hi
  have gl := List.getElem?_eq_getElem hl
  have gu := List.getElem?_eq_getElem hu
  have gx := List.getElem?_eq_getElem hx
  obtain ⟨nl, nu, _⟩ := hP.ordered i _ _ gl gu
  unfold saMove
  rw [wp_bind, wp_lift_get hs, wp_bind, wp_lift_get hl, wp_bind, wp_lift_get hu, wp_bind, wp_lift_get hx, wp_bind, wp_onRng]
  refine wp_uniformAny hg _ _ ?_ ?_
  · intro a b w e e1 e2 h1 h2
    rw [wp_lift_set (by rw [h.same]; exact hx), h.same]
    refine hq (.fin w) e (inBox_set h.box ?_)
    intro l u hl' hu'
    rw [gl] at hl'; rw [gu] at hu'
    cases hl'; cases hu'
    exact ⟨(stdMax_ge nl e1).trans (by simpa using h1), le_trans (by simpa using h2) (stdMin_le nu e2)⟩
  · intro hno
    refine he (fun hN => ?_)
    obtain ⟨l, hl'⟩ := hN.finL _ (List.getElem_mem hl)
    obtain ⟨u, hu'⟩ := hN.finU _ (List.getElem_mem hu)
    obtain ⟨r, hr, hr0⟩ := h.steps hN _ (List.getElem_mem hs)
    have hbx := h.box.2 i _ _ _ gl gu gx
    have ml : Fl.fin l ∈ P.lb := hl' ▸ List.getElem_mem hl
    have mu : Fl.fin u ∈ P.ub := hu' ▸ List.getElem_mem hu
    rw [hl', hu', hr] at hno
    rw [hl', hu'] at hbx
    obtain ⟨x, hx'⟩ : ∃ x, c.xOld[i] = .fin x := by
      have h3 := hbx.1
      have h4 := hbx.2.1
      cases hc : c.xOld[i] with
      | fin x => exact ⟨x, rfl⟩
      | nan => rw [hc] at h4; exact absurd h4 (by simp [Fl.le_def, Fl.cls])
      | pinf => rw [hc] at h4; exact absurd h4 (by simp [Fl.le_def, Fl.cls])
      | ninf => rw [hc] at h3; exact absurd h3 (by simp [Fl.le_def, Fl.cls])
    rw [hx'] at hbx hno
    have hlx : l ≤ x := by simpa using hbx.1
    have hxu : x ≤ u := by simpa using hbx.2.1
    obtain ⟨w, hw, hw0⟩ := hN.width l u r ml mu (hlx.trans hxu) hr0
    obtain ⟨a, b, ha, hb, hab, hau, hlb⟩ := hN.range l u x w ml mu hlx hxu hw0
    rw [hw, ha, hb] at hno
    have e1 : Fl.stdMax (.fin a) (.fin l) = .fin (max a l) := by
      simp only [Fl.stdMax, Fl.lt, decide_eq_true_eq]
      split
      · rename_i h; rw [max_eq_right h.le]
      · rename_i h; rw [max_eq_left (not_lt.mp h)]
    have e2 : Fl.stdMin (.fin b) (.fin u) = .fin (min b u) := by
      simp only [Fl.stdMin, Fl.lt, decide_eq_true_eq]
      split
      · rename_i h; rw [min_eq_right h.le]
      · rename_i h; rw [min_eq_left (not_lt.mp h)]
    exact hno _ _ e1 e2 (max_le (le_min hab hau) (le_min hlb (hlx.trans hxu))) (hN.diff _ _)

theorem saFailed_of {A : Sa K} {e : Exn} {s : St K σ} (h : RunFailed P s0 e s) : SaFailed N P A s0 e s := by
  obtain ⟨new, h1, h2, h3⟩ := h
  exact ⟨new, h1, h2, h3.elim Or.inl (fun h => Or.inr (Or.inl h))⟩

theorem wp_saComp {A : Sa K} (hg : v.g.Lawful rep) (hn : SaNan v) (hP : SaneBounds P.lb P.ub P.nix) (hnx : P.info.nx = P.lb.length)
    (hnf : P.info.nf = 1) {k : Nat → Nat} {c : SVars K} {new : List (ECall K)} {s : St K σ} {i n : Nat}
    (h : SaInv (SaNum v P A) P s0 x0 a0 k c new s) (hlt : k ((i + 1) % P.info.nx) < 2 ^ 31 - 1) :
    wp (saComp v P (c, i) n)
      (fun r s' => r.2 = (i + 1) % P.info.nx ∧ ∃ p, SaInv (SaNum v P A) P s0 x0 a0
        (Function.update k ((i + 1) % P.info.nx) (k ((i + 1) % P.info.nx) + 1)) r.1 (new ++ [p]) s')
      (SaFailed (SaNum v P A) P A s0) s := by
  have hnx0 : 0 < P.info.nx := by rw [hnx]; exact List.length_pos_iff.mpr hP.nonempty
  have hi : (i + 1) % P.info.nx < P.info.nx := Nat.mod_lt _ hnx0
  unfold saComp
  rw [wp_bind]
  refine wp_saMove hg hP hnx h hi ?_ ?_
  · intro w e hbx
    rw [wp_bind]
    have h' := saInv_rng h e
    refine wp_eval_tracked hnx h'.tr hbx ?_ (fun e s' h => saFailed_of h)
    intro f s' hf hp _ ht
    obtain ⟨f0, rfl⟩ := List.length_eq_one_iff.mp (hf.trans hnf)
    rw [wp_bind]
    refine (wp_saDecide hg hn hnx h' hi hlt hbx hp ht).mono ?_ (fun _ _ h => h)
    intro c' s'' hc
    rw [wp_pure]
    exact ⟨rfl, _, hc⟩
  · intro hN
    exact ⟨new, h.tr.evs, h.tr.box, Or.inr (Or.inr (Or.inr ⟨rfl, hN⟩))⟩

theorem wp_saBin {A : Sa K} (hg : v.g.Lawful rep) (hn : SaNan v) (hP : SaneBounds P.lb P.ub P.nix) (hnx : P.info.nx = P.lb.length)
    (hnf : P.info.nf = 1) (hsz : P.info.nx < 2 ^ 64) {m : Nat} {c : SVars K} {new : List (ECall K)} {s : St K σ} {n : Nat}
    (h : SaInv (SaNum v P A) P s0 x0 a0 (fun _ => m) c new s) (hlt : m < 2 ^ 31 - 1) :
    wp (saBin v P c n)
      (fun c' s' => ∃ new', new'.length = new.length + P.info.nx ∧ SaInv (SaNum v P A) P s0 x0 a0 (fun _ => m + 1) c' new' s')
      (SaFailed (SaNum v P A) P A s0) s := by
  have hnx0 : 0 < P.info.nx := by rw [hnx]; exact List.length_pos_iff.mpr hP.nonempty
  unfold saBin
  rw [wp_bind, wp_onRng]
  rw [show (P.info.nx + (2 ^ 64 - 1)) % 2 ^ 64 = P.info.nx - 1 by omega]
  refine Gen.wp_drawNat hg (by omega) (fun i e _ hi => ?_)
  rw [wp_bind]
  refine (wp_range (fun t (b : SVars K × Nat) s' => b.2 = (i + t) % P.info.nx ∧ ∃ (k : Nat → Nat) (new' : List (ECall K)),
      new'.length = new.length + t ∧ SaInv (SaNum v P A) P s0 x0 a0 k b.1 new' s' ∧ (∀ j, k j ≤ m + 1) ∧
      ∀ d, t < d → d ≤ P.info.nx → k ((i + d) % P.info.nx) ≤ m) P.info.nx (c, i) { s with e := e } ?_ ?_).mono ?_ (fun _ _ h => h)
  · exact ⟨by simp [Nat.mod_eq_of_lt (show i < P.info.nx by omega)], _, new, rfl, saInv_rng h e, fun _ => by omega, fun _ _ _ => le_rfl⟩
  · rintro t ⟨c', j⟩ s' ht ⟨hj, k, new', hl, hc, hk1, hk2⟩
    dsimp only at hj
    have hji : (j + 1) % P.info.nx = (i + (t + 1)) % P.info.nx := by rw [hj, Nat.mod_add_mod, Nat.add_assoc]
    have hkm := hk2 (t + 1) (by omega) (by omega)
    refine (wp_saComp hg hn hP hnx hnf hc (by rw [hji]; omega)).mono ?_ (fun _ _ h => h)
    rintro ⟨c'', j'⟩ s'' ⟨h1, p, h2⟩
    rw [hji] at h1 h2
    refine ⟨h1, _, _, by simp [hl]; omega, h2, ?_, ?_⟩
    · intro q
      by_cases e : q = (i + (t + 1)) % P.info.nx
      · rw [e, Function.update_self]; omega
      · rw [Function.update_of_ne e]; exact hk1 q
    · intro d hd1 hd2
      rw [Function.update_of_ne]
      · exact hk2 d (by omega) hd2
      · intro e
        have := Nat.sub_mod_eq_zero_of_mod_eq e
        rw [show i + d - (i + (t + 1)) = d - (t + 1) by omega, Nat.mod_eq_of_lt (by omega)] at this
        omega
  · rintro ⟨c', j⟩ s' ⟨_, k, new', hl, hc, hk1, _⟩
    rw [wp_pure]
    exact ⟨new', hl, saInv_bound hc hk1⟩

theorem wp_saAdjust {A : Sa K} {c : SVars K} {new : List (ECall K)} {s : St K σ}
    (h : SaInv (SaNum v P A) P s0 x0 a0 (fun _ => A.bin) c new s) {E : Exn → St K σ → Prop} :
    wp ((List.range P.info.nx).foldlM (saAdjust v A) c)
      (fun c' s' => SaInv (SaNum v P A) P s0 x0 a0 (fun _ => 0) c' new s') E s := by
  refine (wp_range (fun t (b : SVars K) s' => SaInv (SaNum v P A) P s0 x0 a0 (fun j => if j < t then 0 else A.bin) b new s')
    P.info.nx c s (by simpa using h) ?_).mono ?_ (fun _ _ h => h)
  · intro t b s' ht hb
    have ha : t < b.acp.length := by rw [hb.nacp]; exact ht
    have hs : t < b.step.length := by rw [hb.nstep]; exact ht
    unfold saAdjust
    rw [wp_bind, wp_lift_get ha, wp_bind, wp_lift_set ha, wp_bind, wp_lift_get hs, wp_bind, wp_lift_set hs, wp_pure]
    refine ⟨hb.tr, hb.pop, hb.same, hb.box, hb.ord, hb.src, hb.nx0, hb.nbest, by simpa using hb.nstep, by simpa using hb.nacp, ?_, ?_⟩
    · intro hN w hw
      rcases List.mem_or_eq_of_mem_set hw with hw | hw
      · exact hb.steps hN w hw
      · obtain ⟨r, hr, hr0⟩ := hb.steps hN _ (List.getElem_mem hs)
        have := hb.acps t _ (List.getElem?_eq_getElem ha)
        rw [if_neg (lt_irrefl _)] at this
        rw [hw, hr]
        exact hN.step r _ hr0 this
    · intro j a hj
      rw [List.getElem?_set] at hj
      by_cases e : t = j
      · subst e
        rw [if_pos rfl, if_pos ha] at hj
        cases hj; omega
      · rw [if_neg e] at hj
        have := hb.acps j a hj
        split at this
        · omega
        · rw [if_neg (by omega)]; exact this
  · intro c' s' hc
    refine { hc with acps := fun j a hj => ?_ }
    have h1 := hc.acps j a hj
    have h2 := (List.getElem?_eq_some_iff.mp hj).1
    rw [hc.nacp] at h2
    rw [if_pos h2] at h1
    exact h1

theorem wp_saRange {A : Sa K} (hg : v.g.Lawful rep) (hn : SaNan v) (hP : SaneBounds P.lb P.ub P.nix) (hnx : P.info.nx = P.lb.length)
    (hnf : P.info.nf = 1) (hsz : P.info.nx < 2 ^ 64) (hbin : A.bin < 2 ^ 31) {c : SVars K} {new : List (ECall K)} {s : St K σ} {n : Nat}
    (h : SaInv (SaNum v P A) P s0 x0 a0 (fun _ => 0) c new s) :
    wp (saRange v P A c n)
      (fun c' s' => ∃ new', new'.length = new.length + A.bin * P.info.nx ∧ SaInv (SaNum v P A) P s0 x0 a0 (fun _ => 0) c' new' s')
      (SaFailed (SaNum v P A) P A s0) s := by
  unfold saRange
  rw [wp_bind]
  refine (wp_range (fun t (b : SVars K) s' => ∃ new' : List (ECall K), new'.length = new.length + t * P.info.nx ∧
    SaInv (SaNum v P A) P s0 x0 a0 (fun _ => t) b new' s') A.bin c s ⟨new, by simp, h⟩ ?_).mono ?_ (fun _ _ h => h)
  · rintro t b s' ht ⟨new', hl, hb⟩
    refine (wp_saBin hg hn hP hnx hnf hsz hb (by omega)).mono ?_ (fun _ _ h => h)
    rintro c' s'' ⟨new'', hl', hc⟩
    exact ⟨new'', by rw [hl', hl]; ring, hc⟩
  · rintro c' s' ⟨new', hl, hc⟩
    exact (wp_saAdjust hc).mono (fun c'' s'' h => ⟨new', hl, h⟩) (fun _ _ h => h)

theorem wp_saLoops {A : Sa K} (hg : v.g.Lawful rep) (hn : SaNan v) (hP : SaneBounds P.lb P.ub P.nix) (hnx : P.info.nx = P.lb.length)
    (hnf : P.info.nf = 1) (hsz : P.info.nx < 2 ^ 64) (hbin : A.bin < 2 ^ 31) {tc : Fl K} {c : SVars K} {s : St K σ}
    (h : SaInv (SaNum v P A) P s0 x0 a0 (fun _ => 0) c [] s) :
    wp ((List.range A.nT).foldlM (saTemp v P A tc) c)
      (fun c' s' => ∃ new', new'.length = A.nT * A.nR * A.bin * P.info.nx ∧ SaInv (SaNum v P A) P s0 x0 a0 (fun _ => 0) c' new' s')
      (SaFailed (SaNum v P A) P A s0) s := by
  refine (wp_range (fun t (b : SVars K) s' => ∃ new' : List (ECall K), new'.length = t * A.nR * A.bin * P.info.nx ∧
    SaInv (SaNum v P A) P s0 x0 a0 (fun _ => 0) b new' s') A.nT c s ⟨[], by simp, h⟩ ?_).mono (fun _ _ h => h) (fun _ _ h => h)
  rintro t b s' ht ⟨new, hl, hb⟩
  unfold saTemp
  rw [wp_bind]
  refine (wp_range (fun t (b : SVars K) s' => ∃ new' : List (ECall K), new'.length = new.length + t * (A.bin * P.info.nx) ∧
    SaInv (SaNum v P A) P s0 x0 a0 (fun _ => 0) b new' s') A.nR b s' ⟨new, by simp, hb⟩ ?_).mono ?_ (fun _ _ h => h)
  · rintro t b s' ht ⟨new', hl, hb⟩
    refine (wp_saRange hg hn hP hnx hnf hsz hbin hb).mono ?_ (fun _ _ h => h)
    rintro c' s'' ⟨new'', hl', hc⟩
    exact ⟨new'', by rw [hl', hl]; ring, hc⟩
  · rintro c' s'' ⟨new', hl', hc⟩
    rw [wp_pure]
    exact ⟨new', by rw [hl', hl]; ring, { hc with }⟩

end
end Verif.Props
