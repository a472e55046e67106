import Verif.Base.Outcome
import Mathlib.Data.Real.Basic

/-!
# Model of `inventory`, include/pagmo/problems/inventory.hpp and src/problems/inventory.cpp

Simplified: real numbers instead of doubles. The engine is any state `σ` with a function `seedE` that gives the state for a seed and a function
`draw` that gives a number drawn from `uniform_real_distribution(0, 1)` and the next state.
-/

set_option autoImplicit false

namespace Verif.Inv

open Verif

/-- the object: `m_weeks`, `m_sample_size`, `m_seed`; the engine `m_e` is passed and returned by the functions that use it -/
structure Udp where
  weeks : Nat
  sampleSize : Nat
  seed : Nat

/-- `inventory::get_bounds`, inventory.cpp 84-89 -/
def bounds (u : Udp) : List ℝ × List ℝ := (List.replicate u.weeks 0, List.replicate u.weeks 200)

variable {σ : Type}

/-- one week, inventory.cpp 67-69; the state is the engine, the inventory level `I` and `retval` -/
noncomputable def week (draw : σ → ℝ × σ) (s : σ × ℝ × ℝ) (xj : ℝ) : σ × ℝ × ℝ :=
  let (u, e) := draw s.1
  let d := u * 100
  let i := s.2.1
  (e, max 0 (i + xj - d), s.2.2 + (1 * xj + 1.5 * max (d - i - xj) 0 + 0.1 * max (i + xj - d) 0))

/-- one sample, inventory.cpp 64-71 -/
noncomputable def sample (draw : σ → ℝ × σ) (x : List ℝ) (s : σ × ℝ) : σ × ℝ :=
  let r := x.foldl (week draw) (s.1, 0, s.2)
  (r.1, r.2.2)

/-- `inventory::fitness`, inventory.cpp 51-74: the value and the engine afterwards. For a sample size of 0 the quotient 0 / 0 is not a number
(`none`). -/
noncomputable def fitness (u : Udp) (seedE : Nat → σ) (draw : σ → ℝ × σ) (x : List ℝ) (_engine : σ) : Option ℝ × σ :=
  let r := (List.range u.sampleSize).foldl (fun s _ => sample draw x s) (seedE u.seed, 0)
  (if u.sampleSize = 0 then none else some (r.2 / u.sampleSize), r.1)

end Verif.Inv
