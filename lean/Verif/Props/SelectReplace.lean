import Verif.Proof.Algo
import Verif.Props.Population

/-!
# C73: selection and replacement policies
-/

set_option autoImplicit false

namespace Verif.Props

open Verif Run Prob Pop Alg

variable {K σ : Type} [Field K] [LinearOrder K]

/-- The individual at index `i` is one the policy `pol` asks for; `better` compares fitness vectors. -/
def Picked (better : List (Fl K) → List (Fl K) → Prop) (p : Pop.State K) : Policy → Nat → Prop
  | .best, i => ∃ f, p.f[i]? = some f ∧ ∀ g ∈ p.f, ¬ better g f
  | .worst, i => ∃ f, p.f[i]? = some f ∧ ∀ g ∈ p.f, ¬ better f g
  | .random, i => i < p.id.length
  | .index k, i => i = k ∧ k < p.id.length

/-- `best_idx()` and `worst_idx()` find a best and a worst individual (this is C17). -/
def Ranked (v : Env K σ) (P : AProb K) (better : List (Fl K) → List (Fl K) → Prop) (p : Pop.State K) : Prop :=
  (∃ i f, bestIdx v.srt v.sq P.info p.f p.tol = .ok i ∧ p.f[i]? = some f ∧ ∀ g ∈ p.f, ¬ better g f) ∧
  (∃ i f, worstIdx v.srt v.sq P.info p.f p.tol = .ok i ∧ p.f[i]? = some f ∧ ∀ g ∈ p.f, ¬ better f g)

theorem picked_lt {better : List (Fl K) → List (Fl K) → Prop} {P : Info} {p : Pop.State K} (h : WellFormed P p)
    {pol : Policy} {i : Nat} (hp : Picked better p pol i) : i < p.id.length := by
  cases pol with
  | best => obtain ⟨f, h1, _⟩ := hp; have := (List.getElem?_eq_some_iff.mp h1).1; have := h.fs; omega
  | worst => obtain ⟨f, h1, _⟩ := hp; have := (List.getElem?_eq_some_iff.mp h1).1; have := h.fs; omega
  | random => exact hp
  | index k => exact hp.1 ▸ hp.2

theorem wp_policyIdx {v : Env K σ} {rep : K → Prop} (hg : v.g.Lawful rep) {P : AProb K}
    {better : List (Fl K) → List (Fl K) → Prop} {pol : Policy} {Q : Nat → St K σ → Prop} {E : Exn → St K σ → Prop}
    {s : St K σ} (hne : s.pop.id ≠ []) (hsz : s.pop.id.length ≤ 2 ^ 64 - 1)
    (hr : pol = .best ∨ pol = .worst → Ranked v P better s.pop)
    (hq : ∀ i e, Picked better s.pop pol i → Q i { s with e := e })
    (he : (∃ k, pol = .index k ∧ s.pop.id.length ≤ k) → E .invalidArgument s) : wp (policyIdx v P pol) Q E s := by
  cases pol with
  | best =>
    obtain ⟨⟨i, f, h1, h2, h3⟩, _⟩ := hr (Or.inl rfl)
    simp only [policyIdx]
    rw [wp_bind, wp_get', h1, wp_lift_ok]
    exact hq i s.e ⟨f, h2, h3⟩
  | worst =>
    obtain ⟨_, ⟨i, f, h1, h2, h3⟩⟩ := hr (Or.inr rfl)
    simp only [policyIdx]
    rw [wp_bind, wp_get', h1, wp_lift_ok]
    exact hq i s.e ⟨f, h2, h3⟩
  | random =>
    simp only [policyIdx]
    rw [wp_bind, wp_get', wp_onRng]
    have hpos : 0 < s.pop.id.length := List.length_pos_iff.mpr hne
    have : (s.pop.id.length + (2 ^ 64 - 1)) % 2 ^ 64 = s.pop.id.length - 1 := by omega
    rw [this]
    exact Gen.wp_drawNat hg (by omega) (fun i e _ h => hq i e (by simp only [Picked]; omega))
  | index k =>
    simp only [policyIdx]
    rw [wp_bind, wp_get']
    split
    · rename_i h; exact he ⟨k, rfl, h⟩
    · rename_i h; exact hq k s.e ⟨rfl, by omega⟩

theorem wp_select {v : Env K σ} {rep : K → Prop} (hg : v.g.Lawful rep) {P : AProb K}
    {better : List (Fl K) → List (Fl K) → Prop} {pol : Policy} {Q : List (Fl K) × List (Fl K) → St K σ → Prop}
    {E : Exn → St K σ → Prop} {s : St K σ} (hi : Inv P.info s.pop) (hne : s.pop.id ≠ [])
    (hsz : s.pop.id.length ≤ 2 ^ 64 - 1) (hr : pol = .best ∨ pol = .worst → Ranked v P better s.pop)
    (hq : ∀ i e x f, Picked better s.pop pol i → s.pop.x[i]? = some x → s.pop.f[i]? = some f →
      Q (x, f) { s with e := e })
    (he : (∃ k, pol = .index k ∧ s.pop.id.length ≤ k) → E .invalidArgument s) :
    wp (selectIndividual v P pol) Q E s := by
  unfold selectIndividual
  rw [wp_bind]
  refine wp_policyIdx hg hne hsz hr (fun i e hp => ?_) he
  have h := picked_lt hi.wf hp
  have h1 : i < s.pop.x.length := by rw [hi.wf.xs]; exact h
  have h2 : i < s.pop.f.length := by rw [hi.wf.fs]; exact h
  rw [wp_bind, wp_get', wp_bind, wp_lift_get h1, wp_bind, wp_lift_get h2]
  exact hq i e _ _ hp (List.getElem?_eq_getElem h1) (List.getElem?_eq_getElem h2)

variable [IsStrictOrderedRing K]

theorem wp_replace {v : Env K σ} {rep : K → Prop} (hg : v.g.Lawful rep) {P : AProb K} (hnx : 0 < P.info.nx)
    (hnobj : 0 < P.info.nobj)
    {better : List (Fl K) → List (Fl K) → Prop} {pol : Policy} {x f : List (Fl K)} {Q : Unit → St K σ → Prop}
    {E : Exn → St K σ → Prop} {s : St K σ} (hi : Inv P.info s.pop) (hne : s.pop.id ≠ [])
    (hsz : s.pop.id.length ≤ 2 ^ 64 - 1) (hr : pol = .best ∨ pol = .worst → Ranked v P better s.pop)
    (hx : x.length = P.info.nx) (hf : f.length = P.info.nf)
    (hq : ∀ i e p, Picked better s.pop pol i → p.id = s.pop.id → p.x = s.pop.x.set i x → p.f = s.pop.f.set i f →
      p.tol = s.pop.tol → Inv P.info p → ChStep v.sq P.info x f s.pop (p.chX, p.chF) →
      Q () { s with e := e, pop := p })
    (he : ∀ e s', s'.evs = s.evs → (e = .invalidArgument ∧ (∃ k, pol = .index k ∧ s.pop.id.length ≤ k) ∨
      e = .badAlloc ∧ s.pop.faults ≠ []) → E e s') :
    wp (replaceIndividual v P pol x f) Q E s := by
  unfold replaceIndividual
  rw [wp_bind]
  refine wp_policyIdx hg hne hsz hr (fun i e hp => ?_) (fun h => he _ s rfl (Or.inl ⟨rfl, h⟩))
  rw [wp_onPop]
  have := op_run (sq := v.sq) hnx hnobj hi (.setXF i x f)
  refine (this.and (m := Op.run v.sq P.info (.setXF i x f))
    (wp_setXF (E := fun e p => e = .badAlloc ∧ s.pop.faults ≠ [])
      (Q := fun _ _ => True) hnx hnobj hi.tol hi.ch hi.wf.xs hi.wf.fs (fun _ _ _ _ _ _ _ => trivial)
      (fun h => ?_) (fun h t => ⟨rfl, h⟩))).mono ?_ ?_
  · have := picked_lt hi.wf hp
    omega
  · rintro _ p ⟨⟨hi', he', _, ht, x', f', hins, hx', hf', hc⟩, _⟩
    simp only [Op.inserts, Option.some.injEq, Prod.mk.injEq] at hins
    rw [← hins.1, ← hins.2] at hc
    obtain ⟨_, h1, h2, h3⟩ := he'
    exact hq i e p hp h1 h2 h3 ht hi' hc
  · rintro e' p ⟨_, h⟩
    exact he e' _ rfl (Or.inr h)

omit [IsStrictOrderedRing K]

/-- C73 (selection). In every non-empty population of a problem, for every engine: `select_individual` returns the
decision vector and fitness of one individual the policy asks for and changes nothing, or throws `std::invalid_argument`
because the index is not below the size. For "best" and "worst" `best_idx()` and `worst_idx()` must work, see
`ranked_unconstrained` and `ranked_constrained`. -/
theorem C73_select (v : Env K σ) (rep : K → Prop) (hg : v.g.Lawful rep) (P : AProb K)
    (better : List (Fl K) → List (Fl K) → Prop) (pol : Policy) (s : St K σ) (hi : Inv P.info s.pop)
    (hne : s.pop.id ≠ []) (hsz : s.pop.id.length ≤ 2 ^ 64 - 1)
    (hr : pol = .best ∨ pol = .worst → Ranked v P better s.pop) :
    wp (selectIndividual v P pol)
      (fun xf s' => s'.pop = s.pop ∧ s'.evs = s.evs ∧
        ∃ i, Picked better s.pop pol i ∧ s.pop.x[i]? = some xf.1 ∧ s.pop.f[i]? = some xf.2)
      (fun e s' => s'.pop = s.pop ∧ s'.evs = s.evs ∧ e = .invalidArgument ∧
        ∃ k, pol = .index k ∧ s.pop.id.length ≤ k) s :=
  wp_select hg hi hne hsz hr (fun i _ _ _ hp h1 h2 => ⟨rfl, rfl, i, hp, h1, h2⟩) (fun h => ⟨rfl, rfl, rfl, h⟩)

/-- C73 (replacement). `replace_individual` overwrites one individual the policy asks for, keeps all IDs and all other
individuals, or throws: `std::invalid_argument` because the index is not below the size, or a failed allocation. -/
theorem C73_replace [IsStrictOrderedRing K] (v : Env K σ) (rep : K → Prop) (hg : v.g.Lawful rep) (P : AProb K)
    (hnx : 0 < P.info.nx) (hnobj : 0 < P.info.nobj)
    (better : List (Fl K) → List (Fl K) → Prop) (pol : Policy) (x f : List (Fl K)) (s : St K σ) (hi : Inv P.info s.pop)
    (hne : s.pop.id ≠ []) (hsz : s.pop.id.length ≤ 2 ^ 64 - 1)
    (hr : pol = .best ∨ pol = .worst → Ranked v P better s.pop)
    (hx : x.length = P.info.nx) (hf : f.length = P.info.nf) :
    wp (replaceIndividual v P pol x f)
      (fun _ s' => s'.evs = s.evs ∧ s'.pop.id = s.pop.id ∧ s'.pop.tol = s.pop.tol ∧
        ∃ i, i < s.pop.id.length ∧ Picked better s.pop pol i ∧ s'.pop.x[i]? = some x ∧ s'.pop.f[i]? = some f ∧
          ∀ j, j ≠ i → s'.pop.x[j]? = s.pop.x[j]? ∧ s'.pop.f[j]? = s.pop.f[j]?)
      (fun e s' => s'.evs = s.evs ∧ (e = .invalidArgument ∧ (∃ k, pol = .index k ∧ s.pop.id.length ≤ k) ∨
        e = .badAlloc ∧ s.pop.faults ≠ [])) s := by
  refine wp_replace hg hnx hnobj hi hne hsz hr hx hf ?_ (fun e s' h1 h2 => ⟨h1, h2⟩)
  intro i e p hp h1 h2 h3 h4 _ _
  have hlt := picked_lt hi.wf hp
  refine ⟨rfl, h1, h4, i, hlt, hp, ?_, ?_, ?_⟩
  · simp only [h2]; rw [List.getElem?_set_self (by rw [hi.wf.xs]; exact hlt)]
  · simp only [h3]; rw [List.getElem?_set_self (by rw [hi.wf.fs]; exact hlt)]
  · intro j hj
    simp only [h2, h3]
    exact ⟨List.getElem?_set_ne (Ne.symm hj), List.getElem?_set_ne (Ne.symm hj)⟩

/-- C73: "best" and "worst" work without constraints, unless an objective is NaN. -/
theorem ranked_unconstrained (v : Env K σ) (P : AProb K) (hnobj : P.info.nobj = 1) (hnc : P.info.nc = 0)
    (p : Pop.State K) (hw : WellFormed P.info p) (hne : p.id ≠ []) (hsz : p.id.length ≤ 2 ^ 63)
    (hnan : ∀ f ∈ p.f, Fl.nan ∉ f) : Ranked v P Lower p :=
  C17_unconstrained_partial v.srt v.sq P.info hnobj hnc p.f
    (fun h => hne (List.length_eq_zero_iff.mp (by rw [← hw.fs, h]; rfl))) (by rw [hw.fs]; exact hsz) hw.dimF hnan p.tol

/-- C73: "best" and "worst" work with constraints of one kind. -/
theorem ranked_constrained (v : Env ℝ σ) (hsrt : ValidSort v.srt) (hsq : v.sq = Fl.sqrtR) (P : AProb ℝ)
    (hnobj : P.info.nobj = 1) (hnc : 0 < P.info.nc) (hk : P.info.nec = 0 ∨ P.info.nic = 0)
    (p : Pop.State ℝ) (hi : Inv P.info p) (hne : p.id ≠ []) : Ranked v P (FcBetter P.info.nec p.tol) p := by
  unfold Ranked
  rw [hsq]
  exact C17_constrained_partial v.srt hsrt P.info hnobj hnc hk p.f
    (fun h => hne (List.length_eq_zero_iff.mp (by rw [← hi.wf.fs, h]; rfl))) hi.wf.dimF p.tol hi.tol

/-- C73 (setters). Only the three documented strings are accepted. -/
theorem C73_strings (p : String) :
    (∃ pol, policyOfString p = .ok pol ∧
      (p = "best" ∧ pol = .best ∨ p = "worst" ∧ pol = .worst ∨ p = "random" ∧ pol = .random)) ∨
    (p ≠ "best" ∧ p ≠ "worst" ∧ p ≠ "random" ∧ policyOfString p = .throws .invalidArgument) := by
  unfold policyOfString
  by_cases h1 : p = "best"
  · left; exact ⟨.best, by simp [h1], Or.inl ⟨h1, rfl⟩⟩
  · by_cases h2 : p = "worst"
    · left; exact ⟨.worst, by simp [h2], Or.inr (Or.inl ⟨h2, rfl⟩)⟩
    · by_cases h3 : p = "random"
      · left; exact ⟨.random, by simp [h3], Or.inr (Or.inr ⟨h3, rfl⟩)⟩
      · right; exact ⟨h1, h2, h3, by simp [h1, h2, h3]⟩

/-! ### non-triviality -/

/-- one variable in [0, 10], the square as objective -/
def algDemo : AProb ℚ :=
  ⟨P1, [.fin 0], [.fin 10], 0, fun _ x => .ok (x.map (fun a => Fl.mul a a))⟩

def algDemoEnv : Env ℚ (List ℚ) := ⟨insSort, id, Fl.exact ℚ, demoGen⟩

/-- three individuals -/
def algDemoSt : St ℚ (List ℚ) :=
  ⟨⟨[7, 8, 9], [[.fin 3], [.fin 1], [.fin 2]], [[.fin 9], [.fin 1], [.fin 4]], [.fin 1], [.fin 1], [], fun n => n, []⟩, [1], []⟩

theorem algDemo_inv : Inv algDemo.info algDemoSt.pop where
  wf := ⟨rfl, rfl, by decide +kernel, by decide +kernel⟩
  ch := Or.inr ⟨rfl, rfl⟩
  tol := rfl

theorem algDemo_ranked : Ranked algDemoEnv algDemo Lower algDemoSt.pop :=
  ranked_unconstrained _ _ rfl rfl _ algDemo_inv.wf (by simp [algDemoSt]) (by simp [algDemoSt]) (by decide +kernel)

example : wp (selectIndividual algDemoEnv algDemo .worst)
      (fun xf s' => s'.pop = algDemoSt.pop ∧ s'.evs = algDemoSt.evs ∧
        ∃ i, Picked Lower algDemoSt.pop .worst i ∧ algDemoSt.pop.x[i]? = some xf.1 ∧ algDemoSt.pop.f[i]? = some xf.2)
      (fun e s' => s'.pop = algDemoSt.pop ∧ s'.evs = algDemoSt.evs ∧ e = .invalidArgument ∧
        ∃ k, Policy.worst = .index k ∧ algDemoSt.pop.id.length ≤ k) algDemoSt :=
  C73_select algDemoEnv _ demoGen_lawful algDemo Lower .worst algDemoSt algDemo_inv (by simp [algDemoSt])
    (by simp [algDemoSt]) (fun _ => algDemo_ranked)

example : (selectIndividual algDemoEnv algDemo .worst algDemoSt).1 = .ok ([.fin 3], [.fin 9]) := by decide +kernel
example : (selectIndividual algDemoEnv algDemo .best algDemoSt).1 = .ok ([.fin 1], [.fin 1]) := by decide +kernel
example : (selectIndividual algDemoEnv algDemo .random algDemoSt).1 = .ok ([.fin 2], [.fin 4]) := by decide +kernel
example : (selectIndividual algDemoEnv algDemo (.index 3) algDemoSt).1 = .throws .invalidArgument := by decide +kernel

example : (replaceIndividual algDemoEnv algDemo .worst [.fin 0] [.fin 0] algDemoSt).2.pop.x =
    [[.fin 0], [.fin 1], [.fin 2]] := by decide +kernel

end Verif.Props
