import Verif.Base.Wlp
import Verif.Model.Sea
import Verif.Props.De

/-!
# Proofs about sea
-/

set_option autoImplicit false

namespace Verif.Props

open Verif Run Prob Pop Alg

variable {K σ α : Type} [Field K] [LinearOrder K]

theorem wpn_onRng {N : Prop} {m : Run σ α} {Q : α → St K σ → Prop} {E : Exn → St K σ → Prop} {s : St K σ} :
    wpn N (onRng m) Q E s ↔ wpn N m (fun a p => Q a { s with e := p }) (fun e p => E e { s with e := p }) s.e := by
  unfold wpn onRng
  rcases m s.e with ⟨_ | _ | _ | _, p⟩ <;> simp

theorem wpn_get' {N : Prop} {Q : St K σ → St K σ → Prop} {E : Exn → St K σ → Prop} {s : St K σ} :
    wpn N Run.get Q E s ↔ Q s s := Iff.rfl

/-- The main loop of an algorithm that is never left early. `I k b s`: holds after `k` generations. -/
theorem wpn_genLoop {N : Prop} {β : Type} {body : Nat → β → Run (St K σ) (β × Bool)} {gens : Nat} (hgens : gens + 1 < 2 ^ 32)
    {E : Exn → St K σ → Prop} (I : Nat → β → St K σ → Prop)
    (hb : ∀ k b s, k < gens → I k b s → wpn N (body (k + 1) b) (fun r s' => r.2 = false ∧ I (k + 1) r.1 s') E s) :
    ∀ (fuel k : Nat) (b : β) (s : St K σ), k ≤ gens → gens - k < fuel → I k b s →
      wpn N (genLoop body gens fuel (k + 1) b) (fun b' s' => I gens b' s') E s := by
  intro fuel
  induction fuel with
  | zero => intro k b s _ h _; omega
  | succ n ih =>
    intro k b s hk hf hI
    rw [genLoop]
    split
    · rename_i hlt
      rw [wpn_bind]
      refine (hb k b s (by omega) hI).mono ?_ (fun _ _ h => h)
      rintro r s' ⟨hr, hI'⟩
      rw [hr, if_neg (by simp), show incU (k + 1) = k + 1 + 1 from incU_eq (by omega)]
      exact ih (k + 1) r.1 s' (by omega) (by omega) hI'
    · have : k = gens := by omega
      subst this; exact hI

/-- the engine after `k` numbers from [0, 1) -/
def skip01 (g : Gen K σ) : Nat → σ → σ
  | 0, e => e
  | k + 1, e => skip01 g k (g.real 0 1 e).2

theorem skip01_succ (g : Gen K σ) (k : Nat) (e : σ) : skip01 g (k + 1) e = (g.real 0 1 (skip01 g k e)).2 := by
  induction k generalizing e with
  | zero => rfl
  | succ k ih => rw [skip01, ih]; rfl

theorem skip01_add (g : Gen K σ) (a b : Nat) (e : σ) : skip01 g (a + b) e = skip01 g b (skip01 g a e) := by
  induction a generalizing e with
  | zero => rw [Nat.zero_add]; rfl
  | succ a ih => rw [Nat.succ_add, skip01, ih]; rfl

/-- The `k`-th number drawn from [0, 1) is below `t`. -/
def Below (g : Gen K σ) (t : Fl K) (e : σ) (k : Nat) : Prop := Fl.lt (.fin (g.real 0 1 (skip01 g k e)).1) t = true

section
variable {g : Gen K σ} {rep : K → Prop} {op : Fl.Ops K} {P : AProb K}

theorem wp_seaRound (hg : g.Lawful rep) (hop : NoOverflow op) (hP : FiniteBox P) {x : List (Fl K)} (hx : InBox P.lb P.ub 0 x)
    {E : Exn → σ → Prop} (e : σ) :
    wp ((List.range P.lb.length).foldlM (seaGene g op P.lb P.ub) (x, 0))
      (fun r e' => InBox P.lb P.ub 0 r.1 ∧ (r.2 = 0 → e' = skip01 g P.lb.length e ∧
        ∀ j < P.lb.length, ¬ Below g (op.div op.one (.fin (P.lb.length : K))) e j)) E e := by
  refine wp_range (fun i (r : List (Fl K) × Nat) e' => InBox P.lb P.ub 0 r.1 ∧ (r.2 = 0 → e' = skip01 g i e ∧
        ∀ j < i, ¬ Below g (op.div op.one (.fin (P.lb.length : K))) e j)) P.lb.length (x, 0) e
    ⟨hx, fun _ => ⟨rfl, fun j h => absurd h (by omega)⟩⟩ ?_
  rintro i ⟨y, c⟩ e1 hi ⟨hy, hc⟩
  unfold seaGene
  rw [wp_bind]
  show wp (ite (Fl.lt (Fl.fin (g.real 0 1 e1).1) (op.div op.one (.fin (P.lb.length : K))) = true) _ _) _ _ (g.real 0 1 e1).2
  have hl := hP.bounds.len
  split
  · rename_i hlt
    rw [wp_bind, wp_lift_get hi, wp_bind, wp_lift_get (by omega), wp_bind]
    obtain ⟨n1, n2, hle⟩ := hP.bounds.ordered i _ _ (List.getElem?_eq_getElem hi) (List.getElem?_eq_getElem (by omega))
    obtain ⟨a, ha⟩ := hP.finL _ (List.getElem_mem hi)
    obtain ⟨b, hb⟩ := hP.finU _ (List.getElem_mem (l := P.ub) (n := i) (by omega))
    unfold Rnd.uniformRealFromRange
    refine (wp_uniformReal hg true hle n2 n1 _).mono ?_ ?_
    · rintro w e2 ⟨_, h1, h2⟩
      have hylen := hy.1
      dsimp only at hylen ⊢
      rw [wp_bind, wp_lift_set (by omega), wp_pure]
      refine ⟨inBox_set hy ?_, fun h => absurd h (by simp)⟩
      intro l u h3 h4
      rw [List.getElem?_eq_getElem hi] at h3
      rw [List.getElem?_eq_getElem (by omega)] at h4
      cases h3; cases h4
      exact ⟨h1, h2⟩
    · rintro e2 s ⟨_, hf⟩
      exfalso
      refine hf ?_
      rw [ha, hb]
      obtain ⟨c, hc⟩ := hop.sub b a
      exact ⟨rfl, rfl, by rw [hc]; rfl⟩
  · rename_i hlt
    rw [wp_pure]
    refine ⟨hy, fun h0 => ?_⟩
    obtain ⟨he, hj⟩ := hc h0
    refine ⟨by rw [skip01_succ, he], fun j hji => ?_⟩
    by_cases e' : j = i
    · subst e'; unfold Below; rw [← he]; exact hlt
    · exact hj j (by omega)

/-- The loop that mutates: it may run out of fuel only if none of the numbers drawn was small. -/
theorem wpn_seaMutate (hg : g.Lawful rep) (hop : NoOverflow op) (hP : FiniteBox P) {N : Prop} {Q : List (Fl K) → σ → Prop}
    {E : Exn → σ → Prop} (hq : ∀ y e, InBox P.lb P.ub 0 y → Q y e) (m : Nat) :
    ∀ (x : List (Fl K)) (e : σ), InBox P.lb P.ub 0 x →
      (¬ N → ∃ k < m * P.lb.length, Below g (op.div op.one (.fin (P.lb.length : K))) e k) →
      wpn N (seaMutate g op P.lb P.ub m x) Q E e := by
  induction m with
  | zero =>
    intro x e _ hN
    by_cases h : N
    · exact wpn_nofuel h
    · obtain ⟨k, hk, _⟩ := hN h; omega
  | succ m ih =>
    intro x e hx hN
    rw [seaMutate, wpn_bind]
    refine wpn_of_wp ((wp_seaRound hg hop hP hx e).mono ?_ (fun _ _ h => h))
    rintro ⟨y, c⟩ e' ⟨hy, hc⟩
    dsimp only at hy hc ⊢
    split
    · rename_i h0
      obtain ⟨rfl, hno⟩ := hc h0
      refine ih y _ hy (fun hn => ?_)
      obtain ⟨k, hk, hb⟩ := hN hn
      by_cases hlt : k < P.lb.length
      · exact absurd hb (hno k hlt)
      · refine ⟨k - P.lb.length, ?_, ?_⟩
        · rw [Nat.succ_mul] at hk; omega
        · unfold Below at *
          rw [← skip01_add, show P.lb.length + (k - P.lb.length) = k by omega]
          exact hb
    · exact hq y e' hy

end

end Verif.Props
