import Verif.Model.Algo
import Verif.Model.Random

/-!
# Model of src/algorithms/gwo.cpp

The log is modelled (as the result of `evolve`; what it holds when an exception was thrown is not), the screen output
(src/algorithms/gwo.cpp 198-204) is not.
-/

set_option autoImplicit false

namespace Verif.Alg

open Verif Prob Rnd

variable {K σ : Type} [Field K] [LinearOrder K]

/-- The data members, include/pagmo/algorithms/gwo.hpp 184-188; every value is accepted by the constructor (gwo.cpp 50). -/
structure Gwo where
  gens : Nat
  verb : Nat
  deriving DecidableEq

/-- A leader: score and position. -/
abbrev Wolf (K : Type) := Fl K × List (Fl K)

/-- `m_log`: generation and the three scores -/
abbrev GwoLog (K : Type) := List (Nat × Fl K × Fl K × Fl K)

/-- The local variables `agents_position`, `alpha_*`, `beta_*`, `delta_*`, and the log. -/
structure GwoVars (K : Type) where
  xs : List (List (Fl K))
  al : Wolf K
  be : Wolf K
  de : Wolf K
  log : GwoLog K

/-- `a`, gwo.cpp 127. Conversion of `unsigned` to `double` is exact. -/
def gwoA (v : Env K σ) (A : Gwo) (gen : Nat) : Fl K :=
  let two := v.op.add v.op.one v.op.one
  v.op.sub two (v.op.mul (.fin (gen : K)) (v.op.div two (.fin (A.gens : K))))

/-- `x_vector[0]` as a function of the two random numbers, gwo.cpp 136-140 (and 145-149, 154-158); `p` is the component of the
leader's position, `x` the one of the agent's. -/
def gwoPull (op : Fl.Ops K) (a p x r1 r2 : Fl K) : Fl K :=
  let two := op.add op.one op.one
  op.sub p (op.mul (op.sub (op.mul (op.mul two a) r1) a) (Fl.abs (op.sub (op.mul (op.mul two r2) p) x)))

/-- Two random numbers and `x_vector[0]`, gwo.cpp 133-140. -/
def gwoDraw (v : Env K σ) (a p x : Fl K) : Run σ (Fl K) := do
  let r1 ← v.g.draw01
  let r2 ← v.g.draw01
  pure (gwoPull v.op a p x r1 r2)

/-- Body of the loop over the components, gwo.cpp 132-161; the vector is `agents_position[i]`. -/
def gwoGene (v : Env K σ) (a : Fl K) (al be de : List (Fl K)) (x : List (Fl K)) (k : Nat) : Run σ (List (Fl K)) := do
  let xk ← Run.lift (Outcome.get x k)
  let ak ← Run.lift (Outcome.get al k)
  let x0 ← gwoDraw v a ak xk
  let bk ← Run.lift (Outcome.get be k)
  let x1 ← gwoDraw v a bk xk
  let dk ← Run.lift (Outcome.get de k)
  let x2 ← gwoDraw v a dk xk
  let three := v.op.add (v.op.add v.op.one v.op.one) v.op.one
  Run.lift (Outcome.set x k (v.op.div (v.op.add (v.op.add x0 x1) x2) three))

/-- `if (fit[0] < alpha_score)`, gwo.cpp 169-176 -/
def gwoFirst (f : Fl K) (x : List (Fl K)) (c : GwoVars K) : GwoVars K :=
  if Fl.lt f c.al.1 then { c with de := c.be, be := c.al, al := (f, x) } else c

/-- `if (fit[0] > alpha_score && fit[0] < beta_score)`, gwo.cpp 178-183 -/
def gwoSecond (f : Fl K) (x : List (Fl K)) (c : GwoVars K) : GwoVars K :=
  if Fl.gt f c.al.1 && Fl.lt f c.be.1 then { c with de := c.be, be := (f, x) } else c

/-- `if (fit[0] > alpha_score && fit[0] > beta_score && fit[0] < delta_score)`, gwo.cpp 185-188 -/
def gwoThird (f : Fl K) (x : List (Fl K)) (c : GwoVars K) : GwoVars K :=
  if Fl.gt f c.al.1 && Fl.gt f c.be.1 && Fl.lt f c.de.1 then { c with de := (f, x) } else c

/-- Body of the loop over the agents, gwo.cpp 129-190. -/
def gwoAgent (v : Env K σ) (P : AProb K) (a : Fl K) (c : GwoVars K) (i : Nat) : Run (St K σ) (GwoVars K) := do
  let x ← Run.lift (Outcome.get c.xs i)
  let x ← onRng ((List.range P.info.nx).foldlM (gwoGene v a c.al.2 c.be.2 c.de.2) x)
  let x ← Run.lift (forceBoundsStick x P.lb P.ub)
  let f ← eval P x
  onPop (Pop.setXF v.sq P.info i x f)
  let s ← Run.get
  let fit ← Run.lift (Outcome.get s.pop.f i)
  let f0 ← Run.lift (Outcome.get fit 0)
  let xs ← Run.lift (Outcome.set c.xs i x)
  pure (gwoThird f0 x (gwoSecond f0 x (gwoFirst f0 x { c with xs := xs })))

/-- Is there a line in the log? gwo.cpp 194-196 -/
def gwoLogs (A : Gwo) (gen : Nat) : Bool := A.verb > 0 && (gen % A.verb == 1 || A.verb == 1)

/-- Body of the main loop, gwo.cpp 125-210. -/
def gwoGen (v : Env K σ) (P : AProb K) (A : Gwo) (NP gen : Nat) (c : GwoVars K) : Run (St K σ) (GwoVars K × Bool) := do
  let c ← (List.range NP).foldlM (gwoAgent v P (gwoA v A gen)) c
  pure (if gwoLogs A gen then { c with log := c.log ++ [(gen, c.al.1, c.be.1, c.de.1)] } else c, false)

/-- `greater_than_f(init_fit[j][0], init_fit[k][0])`, gwo.cpp 113-115. Every fitness vector has an element. -/
def gwoGreater (F : List (List (Fl K))) (j k : Nat) : Bool :=
  Fl.greaterThanF ((F.getD j []).getD 0 .nan) ((F.getD k []).getD 0 .nan)

/-- One of the leaders at the start, gwo.cpp 116-121. -/
def gwoLeader (xs F : List (List (Fl K))) (idx : List Nat) (r : Nat) : Outcome (Wolf K) := do
  let i ← Outcome.get idx r
  let f ← Outcome.get F i
  let f0 ← Outcome.get f 0
  let x ← Outcome.get xs i
  .ok (f0, x)

/-- `gwo::evolve`, gwo.cpp 63-213; the result is the log. Without generations the log is not cleared, `log` is the old one. -/
def gwoEvolve (v : Env K σ) (P : AProb K) (A : Gwo) (log : GwoLog K) (fuel : Nat) : Run (St K σ) (GwoLog K) := do
  let s ← Run.get
  if P.info.nc ≠ 0 then Run.throw .invalidArgument
  else if P.info.nf ≠ 1 then Run.throw .invalidArgument
  else if P.info.stochastic then Run.throw .invalidArgument
  else if A.gens = 0 then pure log
  else if s.pop.id.length < 3 then Run.throw .invalidArgument
  else do
    let idx ← Run.lift (stdSort v.srt (gwoGreater s.pop.f) (List.range s.pop.f.length))
    let al ← Run.lift (gwoLeader s.pop.x s.pop.f idx 0)
    let be ← Run.lift (gwoLeader s.pop.x s.pop.f idx 1)
    let de ← Run.lift (gwoLeader s.pop.x s.pop.f idx 2)
    let c ← genLoop (gwoGen v P A s.pop.id.length) A.gens fuel 1 ⟨s.pop.x, al, be, de, []⟩
    pure c.log

end Verif.Alg
