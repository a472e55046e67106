import Verif.Props.Compass
import Verif.Props.SelectReplace

/-!
# C65: compass search on a problem without bounds
-/

set_option autoImplicit false

namespace Verif.Props

open Verif Alg Prob

/-- one variable without bounds, the fitness is the square -/
def compassFree : AProb ℚ := { algDemo with lb := [.ninf], ub := [.pinf] }

/-- did it return normally? -/
def compassOk {α : Type} : Outcome α → Bool
  | .ok _ => true
  | _ => false

/-- C65. The documentation (compass_search.hpp 77-78) says that unbounded problems produce an error. They do not: here is
a run that returns normally, having called the fitness function at plus and at minus infinity only. -/
theorem C65_unbounded : ∃ (A : Compass ℚ) (s' : St ℚ (List ℚ)),
    compassCtor (.fin 1) (.fin 0) 1 (.fin (1 / 2)) (.fin (1 / 4)) (.fin (1 / 2)) = .ok A ∧
    compassFree.lb = [.ninf] ∧ compassFree.ub = [.pinf] ∧
    compassEvolve algDemoEnv compassFree A 2 algDemoSt = (.ok (), s') ∧ s'.evs.map Prod.fst = [[.pinf], [.ninf]] := by
  have hA : CompassArgs (K := ℚ) (.fin (1 / 2)) (.fin (1 / 4)) (.fin (1 / 2)) := by
    refine ⟨1 / 2, 1 / 2, rfl, by norm_num, by norm_num, by simp, ?_, rfl, by norm_num, by norm_num⟩
    have : (1 / 4 : ℚ) < 1 / 2 := by norm_num
    simpa using this
  have h : (compassOk (compassEvolve algDemoEnv compassFree ⟨1, .fin (1 / 2), .fin (1 / 4), .fin (1 / 2), .best, .best⟩ 2 algDemoSt).1 &&
      decide ((compassEvolve algDemoEnv compassFree ⟨1, .fin (1 / 2), .fin (1 / 4), .fin (1 / 2), .best, .best⟩ 2 algDemoSt).2.evs.map
        Prod.fst = [[.pinf], [.ninf]])) = true := by
    decide +kernel
  rcases hr : compassEvolve algDemoEnv compassFree ⟨1, .fin (1 / 2), .fin (1 / 4), .fin (1 / 2), .best, .best⟩ 2 algDemoSt with ⟨o, s'⟩
  rw [hr] at h
  cases o with
  | ok _ =>
    exact ⟨⟨1, .fin (1 / 2), .fin (1 / 4), .fin (1 / 2), .best, .best⟩, s', (C65_ctor _ _ _ _).1 hA, rfl, rfl, hr,
      by simpa [compassOk] using h⟩
  | _ => simp [compassOk] at h

end Verif.Props
