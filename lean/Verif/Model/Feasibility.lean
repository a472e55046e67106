import Verif.Model.Constrained
import Verif.Model.Algo

/-!
# Model of `problem::feasibility_x` and `problem::set_c_tol`
-/

set_option autoImplicit false

namespace Verif.Feas

open Verif Alg

variable {K σ : Type} [Field K] [LinearOrder K]

/-- `problem::feasibility_x`, src/problem.cpp 692-696: `feasibility_f(fitness(x))`. `tol` is `m_c_tol`. -/
def feasibilityX (sq : Fl K → Fl K) (P : AProb K) (tol x : List (Fl K)) : Run (St K σ) Bool := do
  let f ← eval P x
  Run.lift (Con.feasibilityF sq P.info.nobj P.info.nec P.info.nic tol f)

/-- `problem::set_c_tol` with one number, src/problem.cpp 646-655: the new stored tolerances. -/
def setCTolAll (nc : Nat) (t : Fl K) : Outcome (List (Fl K)) :=
  if t.isNan then .throws .invalidArgument
  else if Fl.lt t (.fin 0) then .throws .invalidArgument
  else .ok (List.replicate nc t)

end Verif.Feas
