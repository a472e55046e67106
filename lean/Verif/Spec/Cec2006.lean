import Mathlib.Data.Real.Basic
import Mathlib.Data.Rat.Cast.Order

/-!
# What a constrained problem with box bounds asks for
-/

set_option autoImplicit false

namespace Verif.Spec

/-- `x` has the dimension of the bounds and lies within them -/
def InBox (lb ub : List ℚ) (x : List ℝ) : Prop :=
  x.length = lb.length ∧ ∀ (i : Nat) (l u : ℚ) (v : ℝ), lb[i]? = some l → ub[i]? = some u → x[i]? = some v → (l : ℝ) ≤ v ∧ v ≤ (u : ℝ)

/-- The constraints hold up to `tol`: each of them is a number, the first `nec` are at most `tol` away from 0, the others at most `tol`. -/
def Feas (tol : ℝ) (nec : Nat) (cs : List (Option ℝ)) : Prop :=
  ∀ (i : Nat) (c : Option ℝ), cs[i]? = some c → ∃ v : ℝ, c = some v ∧ v ≤ tol ∧ (i < nec → -tol ≤ v)

/-- The values of the best solutions in the report of the competition (Liang et al., "Problem definitions and evaluation criteria for the CEC
2006 special session on constrained real-parameter optimization"), for the problems whose functions are rational functions. -/
def published : List (Nat × ℚ) :=
  [(1, -15), (4, -30665.5386717834), (6, -6961.8138755802), (7, 24.3062090681), (9, 680.6300573745), (10, 7049.2480205286), (11, 0.7499),
    (12, -1), (15, 961.7150222899), (16, -1.9051552586), (18, -0.8660254038), (19, 32.6555929502), (23, -400.0551), (24, -5.5080132716)]

end Verif.Spec
