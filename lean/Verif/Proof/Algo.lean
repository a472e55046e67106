import Verif.Model.Algo
import Verif.Proof.Population

/-!
# Helper lemmas for algorithms
-/

set_option autoImplicit false

namespace Verif.Alg

open Verif Run Prob

variable {K σ α : Type} [Field K] [LinearOrder K]

theorem wp_onPop {m : Run (Pop.State K) α} {Q : α → St K σ → Prop} {E : Exn → St K σ → Prop} {s : St K σ} :
    wp (onPop m) Q E s ↔ wp m (fun a p => Q a { s with pop := p }) (fun e p => E e { s with pop := p }) s.pop := by
  unfold wp onPop
  rcases m s.pop with ⟨_ | _ | _ | _, p⟩ <;> simp

theorem wp_onRng {m : Run σ α} {Q : α → St K σ → Prop} {E : Exn → St K σ → Prop} {s : St K σ} :
    wp (onRng m) Q E s ↔ wp m (fun a p => Q a { s with e := p }) (fun e p => E e { s with e := p }) s.e := by
  unfold wp onRng
  rcases m s.e with ⟨_ | _ | _ | _, p⟩ <;> simp

/-- The exception `e` comes from the user's code: the last call threw it, or the last call returned a vector of the
wrong size and `e` is the `std::invalid_argument` `problem::fitness` then throws. -/
def UserFault (P : AProb K) (evs : List (ECall K)) (e : Exn) : Prop :=
  ∃ a x r, evs = a ++ [(x, r)] ∧ (r = .error e ∨ ∃ f, r = .ok f ∧ f.length ≠ P.info.nf ∧ e = .invalidArgument)

theorem wp_eval {P : AProb K} {x : List (Fl K)} {Q : List (Fl K) → St K σ → Prop} {E : Exn → St K σ → Prop}
    {s : St K σ} (hx : x.length = P.info.nx)
    (hq : ∀ f, P.fit s.evs x = .ok f → f.length = P.info.nf → Q f { s with evs := s.evs ++ [(x, .ok f)] })
    (he : ∀ e r, UserFault P (s.evs ++ [(x, r)]) e → E e { s with evs := s.evs ++ [(x, r)] }) :
    wp (eval P x) Q E s := by
  unfold wp eval Pop.probFitness
  simp only [if_neg (not_not.mpr hx)]
  cases h : P.fit s.evs x with
  | error e => exact he e _ ⟨s.evs, x, _, rfl, Or.inl rfl⟩
  | ok f =>
    by_cases hf : f.length = P.info.nf
    · simp only [if_neg (not_not.mpr hf)]
      exact hq f h hf
    · simp only [if_pos hf]
      exact he _ _ ⟨s.evs, x, _, rfl, Or.inr ⟨f, rfl, hf, rfl⟩⟩

theorem wp_get' {Q : St K σ → St K σ → Prop} {E : Exn → St K σ → Prop} {s : St K σ} :
    wp (Run.get : Run (St K σ) (St K σ)) Q E s ↔ Q s s := Iff.rfl

end Verif.Alg
