import Verif.Model.Population
import Verif.Proof.Constrained

/-!
# Helper lemmas for `Verif.Props.Population`
-/

set_option autoImplicit false

namespace Verif.Pop

open Verif Run

variable {K : Type} [Field K] [LinearOrder K]

theorem wp_alloc {Q : Unit → State K → Prop} {E : Exn → State K → Prop} {s : State K}
    (hq : ∀ t, (s.faults = [] → t = []) → Q () { s with faults := t })
    (he : s.faults ≠ [] → ∀ t, E .badAlloc { s with faults := t }) : wp alloc Q E s := by
  unfold wp alloc
  rcases s with ⟨id, x, f, chX, chF, tol, rng, _ | ⟨_ | _, t⟩⟩
  · exact hq [] (fun _ => rfl)
  · exact hq t (by simp)
  · exact he (by simp) t

/-- `f` beats `g` in the sense used by `update_champion` -/
def Beats (sq : Fl K → Fl K) (P : Info) (tol f g : List (Fl K)) : Prop :=
  if P.nc = 0 then ∃ a b, f[0]? = some a ∧ g[0]? = some b ∧ a < b
  else Con.compareFc sq f g P.nec tol = .ok true

/-- shape of a champion -/
def ChOk (P : Info) (s : State K) : Prop :=
  (s.chX = [] ∧ s.chF = []) ∨ (s.chX.length = P.nx ∧ s.chF.length = P.nf)

/-- what `update_champion` does to the champion -/
def ChStep (sq : Fl K → Fl K) (P : Info) (x f : List (Fl K)) (s : State K) (c : List (Fl K) × List (Fl K)) :
    Prop :=
  (P.nobj ≠ 1 ∧ c = (s.chX, s.chF)) ∨
  (P.nobj = 1 ∧ s.chX = [] ∧ c = (x, f)) ∨
  (P.nobj = 1 ∧ s.chX ≠ [] ∧ Beats sq P s.tol f s.chF ∧ c = (x, f)) ∨
  (P.nobj = 1 ∧ s.chX ≠ [] ∧ ¬ Beats sq P s.tol f s.chF ∧ c = (s.chX, s.chF))

variable [IsStrictOrderedRing K]

theorem wp_updateChampion {sq : Fl K → Fl K} {P : Info} {x f : List (Fl K)} {s : State K}
    {Q : Unit → State K → Prop} {E : Exn → State K → Prop}
    (hnx : 0 < P.nx) (hnobj : 0 < P.nobj)
    (htol : s.tol.length = P.nc) (hch : ChOk P s) (hx : x.length = P.nx) (hf : f.length = P.nf)
    (hq : ∀ t, (s.faults = [] → t = []) → ∀ c, ChStep sq P x f s c →
      Q () { s with faults := t, chX := c.1, chF := c.2 })
    (he : s.faults ≠ [] → ∀ t, E .badAlloc { s with faults := t }) :
    wp (updateChampion sq P x f) Q E s := by
  unfold updateChampion
  rw [wp_bind]
  refine wp_alloc (fun t ht => ?_) he
  rw [wp_bind]
  refine wp_alloc (fun t' ht' => ?_) (fun h t' => he (fun h' => h (ht h')) t')
  have h2 : s.faults = [] → t' = [] := fun h => ht' (ht h)
  clear ht ht'
  split
  · rename_i h
    exact hq t' h2 (s.chX, s.chF) (Or.inl ⟨h, rfl⟩)
  · rename_i h
    push Not at h
    rw [wp_bind, wp_get]
    dsimp only
    split
    · rename_i h0
      exact hq t' h2 (x, f) (Or.inr (Or.inl ⟨h, List.length_eq_zero_iff.mp h0, rfl⟩))
    · rename_i h0
      have hne : s.chX ≠ [] := fun h => h0 (by rw [h]; rfl)
      have hcl : s.chF.length = P.nf := by
        rcases hch with h' | h'
        · exact absurd h'.1 hne
        · exact h'.2
      have hnf : P.nf = 1 + P.nc := by rw [Info.nf, Info.nc, h]; omega
      split
      · rename_i hc
        obtain ⟨a, ha⟩ : ∃ a, f[0]? = some a := ⟨f[0], List.getElem?_eq_getElem (by omega)⟩
        obtain ⟨b, hb⟩ : ∃ b, s.chF[0]? = some b := ⟨s.chF[0], List.getElem?_eq_getElem (by omega)⟩
        have e1 : Outcome.get f 0 = .ok a := Outcome.get_eq_ok_iff.mpr ha
        have e2 : Outcome.get s.chF 0 = .ok b := Outcome.get_eq_ok_iff.mpr hb
        rw [e1, wp_bind, wp_lift_ok, e2, wp_bind, wp_lift_ok]
        have hB : Beats sq P s.tol f s.chF ↔ a < b := by
          simp only [Beats, if_pos hc, ha, hb, Option.some.injEq]
          exact ⟨fun ⟨_, _, h1, h2, h3⟩ => h1 ▸ h2 ▸ h3, fun h => ⟨_, _, rfl, rfl, h⟩⟩
        split
        · rename_i hl
          rw [Fl.lessThanF_iff] at hl
          exact hq t' h2 (x, f) (Or.inr (Or.inr (Or.inl ⟨h, hne, hB.mpr hl, rfl⟩)))
        · rename_i hl
          rw [Fl.lessThanF_iff] at hl
          exact hq t' h2 (s.chX, s.chF) (Or.inr (Or.inr (Or.inr ⟨h, hne, fun h => hl (hB.mp h), rfl⟩)))
      · rename_i hc
        rw [wp_bind]
        refine wp_alloc (fun u hu => ?_) (fun h u => he (fun h' => h (h2 h')) u)
        have h3 : s.faults = [] → u = [] := fun h => hu (h2 h)
        have v1 : Con.Valid f P.nec s.tol := by
          refine ⟨?_, ?_⟩ <;> simp [Info.nc] at * <;> omega
        have v2 : Con.Valid s.chF P.nec s.tol := by
          refine ⟨?_, ?_⟩ <;> simp [Info.nc] at * <;> omega
        obtain ⟨r, hr⟩ := Con.compareFc_isOk (sq := sq) v1 v2
        rw [wp_bind, hr, wp_lift_ok]
        have hB : Beats sq P s.tol f s.chF ↔ r = true := by
          simp only [Beats, if_neg hc, hr, Outcome.ok.injEq]
        split
        · rename_i hl
          exact hq u h3 (x, f) (Or.inr (Or.inr (Or.inl ⟨h, hne, hB.mpr hl, rfl⟩)))
        · rename_i hl
          exact hq u h3 (s.chX, s.chF) (Or.inr (Or.inr (Or.inr ⟨h, hne, fun h => hl (hB.mp h), rfl⟩)))

theorem wp_pushBackImpl {sq : Fl K → Fl K} {P : Info} {x f : List (Fl K)} {s : State K}
    {Q : Unit → State K → Prop} {E : Exn → State K → Prop}
    (hnx : 0 < P.nx) (hnobj : 0 < P.nobj)
    (htol : s.tol.length = P.nc) (hch : ChOk P s) (hl1 : s.x.length = s.id.length) (hl2 : s.f.length = s.id.length)
    (hq : x.length = P.nx → f.length = P.nf → s.id.length ≠ 2 ^ 64 - 1 →
      ∀ t, (s.faults = [] → t = []) → ∀ c, ChStep sq P x f s c →
      Q () { id := s.id ++ [s.rng 0], x := s.x ++ [x], f := s.f ++ [f], chX := c.1, chF := c.2, tol := s.tol,
             rng := fun n => s.rng (n + 1), faults := t })
    (hinv : x.length ≠ P.nx ∨ f.length ≠ P.nf → E .invalidArgument s)
    (hov : s.id.length = 2 ^ 64 - 1 → E .overflowError s)
    (he : s.faults ≠ [] → ∀ t, E .badAlloc { s with faults := t, rng := fun n => s.rng (n + 1) }) :
    wp (pushBackImpl sq P x f) Q E s := by
  unfold pushBackImpl
  split
  · rename_i h; exact hinv (Or.inl h)
  rename_i h; push Not at h
  split
  · rename_i h'; exact hinv (Or.inr h')
  rename_i h'; push Not at h'
  rw [wp_bind, wp_get]
  split
  · rename_i hs
    exact hov (by omega)
  rename_i hs
  rw [wp_bind, wp_modify, wp_bind]
  refine wp_alloc (fun t0 ht0 => ?_) he
  rw [wp_bind]
  refine wp_alloc (fun t1 ht1 => ?_) (fun h t => he (fun h' => h (ht0 h')) t)
  have k1 : s.faults = [] → t1 = [] := fun h => ht1 (ht0 h)
  dsimp only
  clear ht0 ht1
  rw [wp_tryCatch]
  rw [wp_bind]
  refine wp_alloc (fun t2 ht2 => ?_) (fun h t => ?_)
  · rw [wp_bind, wp_modify, wp_bind]
    have k2 : s.faults = [] → t2 = [] := fun h => ht2 (k1 h)
    refine wp_alloc (fun t3 ht3 => ?_) (fun h t => ?_)
    · rw [wp_bind, wp_modify, wp_bind]
      have k3 : s.faults = [] → t3 = [] := fun h => ht3 (k2 h)
      refine wp_alloc (fun t4 ht4 => ?_) (fun h t => ?_)
      · rw [wp_bind, wp_modify]
        have k4 : s.faults = [] → t4 = [] := fun h => ht4 (k3 h)
        dsimp only
        refine wp_updateChampion hnx hnobj htol hch h h' (fun t5 ht5 c hc => ?_) (fun h t => ?_)
        · exact hq h h' (by omega) t5 (fun h => ht5 (k4 h)) c hc
        · rw [wp_bind, wp_modify, wp_throw]
          have := he (fun h' => h (k4 h')) t
          dsimp only at this ⊢
          have e1 : (s.id ++ [s.rng 0]).take s.id.length = s.id := by simp
          have e2 : (s.x ++ [x]).take s.id.length = s.x := by rw [← hl1]; simp
          have e3 : (s.f ++ [f]).take s.id.length = s.f := by rw [← hl2]; simp
          rw [e1, e2, e3]
          exact this
      · rw [wp_bind, wp_modify, wp_throw]
        have := he (fun h' => h (k3 h')) t
        dsimp only at this ⊢
        have e1 : (s.id ++ [s.rng 0]).take s.id.length = s.id := by simp
        have e2 : (s.x ++ [x]).take s.id.length = s.x := by rw [← hl1]; simp
        have e3 : s.f.take s.id.length = s.f := by rw [← hl2]; simp
        rw [e1, e2, e3]
        exact this
    · rw [wp_bind, wp_modify, wp_throw]
      have := he (fun h' => h (k2 h')) t
      dsimp only at this ⊢
      have e1 : (s.id ++ [s.rng 0]).take s.id.length = s.id := by simp
      have e2 : s.x.take s.id.length = s.x := by rw [← hl1]; simp
      have e3 : s.f.take s.id.length = s.f := by rw [← hl2]; simp
      rw [e1, e2, e3]
      exact this
  · rw [wp_bind, wp_modify, wp_throw]
    have := he (fun h' => h (k1 h')) t
    dsimp only at this ⊢
    have e1 : s.id.take s.id.length = s.id := by simp
    have e2 : s.x.take s.id.length = s.x := by rw [← hl1]; simp
    have e3 : s.f.take s.id.length = s.f := by rw [← hl2]; simp
    rw [e1, e2, e3]
    exact this

theorem wp_setXF {sq : Fl K → Fl K} {P : Info} {i : Nat} {x f : List (Fl K)} {s : State K}
    {Q : Unit → State K → Prop} {E : Exn → State K → Prop}
    (hnx : 0 < P.nx) (hnobj : 0 < P.nobj)
    (htol : s.tol.length = P.nc) (hch : ChOk P s) (hl1 : s.x.length = s.id.length) (hl2 : s.f.length = s.id.length)
    (hq : i < s.id.length → x.length = P.nx → f.length = P.nf →
      ∀ t, (s.faults = [] → t = []) → ∀ c, ChStep sq P x f s c →
      Q () { s with x := s.x.set i x, f := s.f.set i f, chX := c.1, chF := c.2, faults := t })
    (hinv : s.id.length ≤ i ∨ x.length ≠ P.nx ∨ f.length ≠ P.nf → E .invalidArgument s)
    (he : s.faults ≠ [] → ∀ t, E .badAlloc { s with faults := t }) :
    wp (setXF sq P i x f) Q E s := by
  unfold setXF
  rw [wp_bind, wp_get]
  split
  · rename_i h; exact hinv (Or.inl h)
  rename_i hi; push Not at hi
  split
  · rename_i h; exact hinv (Or.inr (Or.inr h))
  rename_i hf; push Not at hf
  split
  · rename_i h; exact hinv (Or.inr (Or.inl h))
  rename_i hx; push Not at hx
  rw [wp_bind]
  refine wp_alloc (fun t0 ht0 => ?_) he
  rw [wp_bind]
  refine wp_alloc (fun t1 ht1 => ?_) (fun h t => he (fun h' => h (ht0 h')) t)
  have k1 : s.faults = [] → t1 = [] := fun h => ht1 (ht0 h)
  dsimp only
  clear ht0 ht1
  rw [wp_bind]
  refine wp_updateChampion hnx hnobj htol hch hx hf (fun t5 ht5 c hc => ?_)
    (fun h t => he (fun h' => h (k1 h')) t)
  rw [wp_bind, wp_get, wp_bind]
  dsimp only
  rw [Outcome.set_of_lt (l := s.x) (by omega), wp_lift_ok, wp_bind, Outcome.set_of_lt (l := s.f) (by omega), wp_lift_ok,
    wp_modify]
  exact hq hi hx hf t5 (fun h => ht5 (k1 h)) c hc

end Verif.Pop
