import Verif.Model.Population
import Verif.Model.Random

/-!
# Model of the two constructors of `population`

src/population.cpp 62-104 and include/pagmo/population.hpp 128-180. The engine `m_e` is a state `σ`; `ids e` is the stream of numbers
that `std::uniform_int_distribution<unsigned long long>()(m_e)` gives from the state `e` on. Simplified: memory allocation succeeds (failures
of the single calls are in Model/Population), and the fitness function gives the same answer for the same vector.
-/

set_option autoImplicit false

namespace Verif.PopCtor

open Verif Rnd

variable {K σ : Type} [Field K] [LinearOrder K] [FloorRing K]

/-- The problem as the constructors see it. -/
structure Prob (K : Type) where
  info : Pop.Info
  lb : List (Fl K)
  ub : List (Fl K)
  nix : Nat
  tol : List (Fl K)
  user : List (Fl K) → Except Exn (List (Fl K))

/-- The first loop of `prob_ctor_impl`, src/population.cpp 69-72, from the individual with `n` left. -/
def drawLoop (g : Gen K σ) (op : Fl.Ops K) (p : Prob K) : Nat → Run σ (List (List (Fl K) × List (Fl K)))
  | 0 => pure []
  | n + 1 => do
    let x ← randomDecisionVector g op p.lb p.ub p.nix
    let f ← Run.lift (Pop.probFitness p.info x (p.user x))
    let rest ← drawLoop g op p n
    pure ((x, f) :: rest)

/-- The second loop, src/population.cpp 75-77. -/
def pushAll (sq : Fl K → Fl K) (p : Prob K) : List (List (Fl K) × List (Fl K)) → Run (Pop.State K) Unit
  | [] => pure ()
  | q :: qs => do
    Pop.pushBackImpl sq p.info q.1 q.2
    pushAll sq p qs

/-- The individuals are added to a population without any, whose engine is in the state `e`. -/
def finish (sq : Fl K → Fl K) (p : Prob K) (ids : σ → Nat → Nat) (qs : List (List (Fl K) × List (Fl K))) (e : σ) : Outcome (Pop.State K) :=
  match pushAll sq p qs (Pop.empty p.tol (ids e) []) with
  | (.ok _, s) => .ok s
  | (.throws x, _) => .throws x
  | (.ub, _) => .ub
  | (.nofuel, _) => .nofuel

/-- `population(problem, n, seed)`, include/pagmo/population.hpp 126-131 with `prob_ctor_impl`, src/population.cpp 62-78. -/
def fromProblem (g : Gen K σ) (op : Fl.Ops K) (sq : Fl K → Fl K) (ids : σ → Nat → Nat) (p : Prob K) (n : Nat) (e : σ) : Outcome (Pop.State K) :=
  match drawLoop g op p n e with
  | (.ok qs, e') => finish sq p ids qs e'
  | (.throws x, _) => .throws x
  | (.ub, _) => .ub
  | (.nofuel, _) => .nofuel

/-- The arguments of the `push_back`s of src/population.cpp 99-102; reading past the end of a vector is undefined. -/
def slices (nx nf : Nat) (dvs fvs : List (Fl K)) (n : Nat) : Outcome (List (List (Fl K) × List (Fl K))) :=
  if n * nx ≤ dvs.length ∧ n * nf ≤ fvs.length then
    .ok ((List.range n).map (fun i => ((dvs.drop (i * nx)).take nx, (fvs.drop (i * nf)).take nf)))
  else .ub

/-- `population(problem, bfe, n, seed)`, include/pagmo/population.hpp 174-180 with `constructor_from_bfe_impl`, src/population.cpp 82-104.
`b` is what the evaluator does with a batch of decision vectors. -/
def fromBfe (g : Gen K σ) (op : Fl.Ops K) (sq : Fl K → Fl K) (ids : σ → Nat → Nat) (p : Prob K) (b : List (Fl K) → Outcome (List (Fl K)))
    (n : Nat) (e : σ) : Outcome (Pop.State K) :=
  match batchRandomDecisionVector g op p.lb p.ub p.nix n e with
  | (.ok dvs, e') => do
    let fvs ← b dvs
    let qs ← slices p.info.nx p.info.nf dvs fvs n
    finish sq p ids qs e'
  | (.throws x, _) => .throws x
  | (.ub, _) => .ub
  | (.nofuel, _) => .nofuel

end Verif.PopCtor
