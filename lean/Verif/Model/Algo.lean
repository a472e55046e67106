import Verif.Base.Rng
import Verif.Model.Population
import Verif.Model.Problem

/-!
# What the algorithms have in common

An algorithm works on a copy of the population (`evolve(population pop)`), its random engine and the problem. The
problem's fitness function is arbitrary user code: what it returns or throws may depend on all calls made before. The
calls are recorded in the state. Logs and screen output of the algorithms are not modelled unless said otherwise.
-/

set_option autoImplicit false

namespace Verif.Alg

open Verif Prob

variable {K σ α : Type} [Field K] [LinearOrder K]

/-- A call of the user's fitness function and its result. -/
abbrev ECall (K : Type) := List (Fl K) × User (List (Fl K))

/-- `pop.get_problem()`: the properties used by the algorithms, and the user's fitness function. -/
structure AProb (K : Type) where
  info : Pop.Info
  lb : List (Fl K)
  ub : List (Fl K)
  nix : Nat
  fit : List (ECall K) → List (Fl K) → User (List (Fl K))

/-- The state of a running algorithm. -/
structure St (K σ : Type) where
  pop : Pop.State K
  e : σ
  /-- the calls of the user's fitness function so far -/
  evs : List (ECall K)

/-- Work on the population. -/
def onPop (m : Run (Pop.State K) α) : Run (St K σ) α := fun s => ((m s.pop).1, { s with pop := (m s.pop).2 })

/-- Work on the random engine. -/
def onRng (m : Run σ α) : Run (St K σ) α := fun s => ((m s.e).1, { s with e := (m s.e).2 })

/-- `prob.fitness(x)`, src/problem.cpp 353-379. -/
def eval (P : AProb K) (x : List (Fl K)) : Run (St K σ) (List (Fl K)) := fun s =>
  (Pop.probFitness P.info x (P.fit s.evs x),
   if x.length ≠ P.info.nx then s else { s with evs := s.evs ++ [(x, P.fit s.evs x)] })

/-- `n++` on an `unsigned`. -/
def incU (n : Nat) : Nat := (n + 1) % 2 ^ 32

/-- `for (gen = 1u; gen <= m_gen; ++gen)` with an `unsigned` counter, the main loop of most algorithms (for example
src/algorithms/de.cpp 139). The body gets the counter and the local variables and returns the local variables and
whether it left the function. The second number is the fuel. -/
def genLoop {β : Type} (body : Nat → β → Run (St K σ) (β × Bool)) (gens : Nat) : Nat → Nat → β → Run (St K σ) β
  | 0, _, _ => Run.lift .nofuel
  | n + 1, gen, b =>
    if gen ≤ gens then do
      let r ← body gen b
      if r.2 then pure r.1 else genLoop body gens n (incU gen) r.1
    else pure b

/-! ## src/algorithms/not_population_based.cpp -/

/-- `m_select`, `m_replace`: include/pagmo/algorithms/not_population_based.hpp 158, 164, a string or an index. -/
inductive Policy where
  | best
  | worst
  | random
  | index (i : Nat)
  deriving DecidableEq

/-- `set_selection(const std::string &)`, not_population_based.cpp 88-96, and `set_replacement(const std::string &)`,
130-138: the new value of the member. -/
def policyOfString (p : String) : Outcome Policy :=
  if p ≠ "best" ∧ p ≠ "worst" ∧ p ≠ "random" then .throws .invalidArgument
  else if p = "best" then .ok .best
  else if p = "worst" then .ok .worst
  else .ok .random

/-- What the algorithm is run with: the sorting algorithm behind `std::sort`, the square root, the arithmetic and the
distributions. -/
structure Env (K σ : Type) where
  srt : (Nat → Nat → Bool) → List Nat → List Nat
  sq : Fl K → Fl K
  op : Fl.Ops K
  g : Gen K σ

/-- The index meant by a policy, not_population_based.cpp 181-206 and 236-252; `best_idx()` without arguments uses the
tolerances of the problem, src/population.cpp 271-274. For an empty population `pop.size() - 1u` wraps around. -/
def policyIdx (v : Env K σ) (P : AProb K) : Policy → Run (St K σ) Nat
  | .best => do
    let s ← Run.get
    Run.lift (Pop.bestIdx v.srt v.sq P.info s.pop.f s.pop.tol)
  | .worst => do
    let s ← Run.get
    Run.lift (Pop.worstIdx v.srt v.sq P.info s.pop.f s.pop.tol)
  | .random => do
    let s ← Run.get
    onRng (v.g.drawNat 0 ((s.pop.id.length + (2 ^ 64 - 1)) % 2 ^ 64))
  | .index i => do
    let s ← Run.get
    if i ≥ s.pop.id.length then Run.throw .invalidArgument else pure i

/-- `select_individual`, not_population_based.cpp 178-210. `best_idx()` is called twice there; it is a function of the
population. -/
def selectIndividual (v : Env K σ) (P : AProb K) (pol : Policy) : Run (St K σ) (List (Fl K) × List (Fl K)) := do
  let i ← policyIdx v P pol
  let s ← Run.get
  let x ← Run.lift (Outcome.get s.pop.x i)
  let f ← Run.lift (Outcome.get s.pop.f i)
  pure (x, f)

/-- `replace_individual`, not_population_based.cpp 232-254. -/
def replaceIndividual (v : Env K σ) (P : AProb K) (pol : Policy) (x f : List (Fl K)) : Run (St K σ) Unit := do
  let i ← policyIdx v P pol
  onPop (Pop.setXF v.sq P.info i x f)

end Verif.Alg
