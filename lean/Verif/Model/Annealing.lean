import Verif.Model.Algo
import Verif.Model.Random

/-!
# Model of src/algorithms/simulated_annealing.cpp
-/

set_option autoImplicit false

namespace Verif.Alg

open Verif Prob

variable {K σ : Type} [Field K] [LinearOrder K]

/-- The parameters of `simulated_annealing`; the three counts are `unsigned`. -/
structure Sa (K : Type) where
  ts : Fl K
  tf : Fl K
  nT : Nat
  nR : Nat
  bin : Nat
  start : Fl K
  select : Policy
  replace : Policy

/-- The constructor, simulated_annealing.cpp 53-85. -/
def saCtor (ts tf : Fl K) (nT nR bin : Nat) (start : Fl K) : Outcome (Sa K) :=
  if Fl.le ts (.fin 0) || !ts.isFinite then .throws .invalidArgument
  else if Fl.le tf (.fin 0) || !tf.isFinite then .throws .invalidArgument
  else if Fl.gt tf ts then .throws .invalidArgument
  else if Fl.le start (.fin 0) || Fl.gt start (.fin 1) || !start.isFinite then .throws .invalidArgument
  else if nT = 0 then .throws .invalidArgument
  else if nR = 0 then .throws .invalidArgument
  else .ok ⟨ts, tf, nT, nR, bin, start, .best, .best⟩

/-- The environment of an algorithm with `std::exp`, `std::pow` and the conversion of an integer to `double`. -/
structure SaEnv (K σ : Type) extends Env K σ where
  ex : Fl K → Fl K
  pw : Fl K → Fl K → Fl K
  cv : Nat → Fl K

/-- The local variables of `evolve`, simulated_annealing.cpp 133-149; `fNEW` is not needed between two moves. `acp` are
counters of type `int`. -/
structure SVars (K : Type) where
  xNew : List (Fl K)
  xOld : List (Fl K)
  bestX : List (Fl K)
  fOld : List (Fl K)
  bestF : List (Fl K)
  step : List (Fl K)
  acp : List Nat
  temp : Fl K

/-- `acp[nter]++` on `std::vector<int>`; overflow is undefined. -/
def incAcp (acp : List Nat) (i : Nat) : Outcome (List Nat) := do
  let a ← Outcome.get acp i
  if a ≥ 2 ^ 31 - 1 then .ub else Outcome.set acp i (a + 1)

/-- Accepting the point, simulated_annealing.cpp 168-170 and 180-182. -/
def saAccept (c : SVars K) (i : Nat) (f : List (Fl K)) : Outcome (SVars K) := do
  let w ← Outcome.get c.xNew i
  let x ← Outcome.set c.xOld i w
  let a ← incAcp c.acp i
  .ok { c with xOld := x, fOld := f, acp := a }

/-- Rejecting it, line 184. -/
def saReject (c : SVars K) (i : Nat) : Outcome (SVars K) := do
  let w ← Outcome.get c.xOld i
  let x ← Outcome.set c.xNew i w
  .ok { c with xNew := x }

/-- Acceptance or rejection of a point with a larger objective, lines 177-186: `probab > drng(m_e)`. -/
def saBoltzmann (v : SaEnv K σ) (c : SVars K) (i : Nat) (f : List (Fl K)) (f0 fo : Fl K) : Run (St K σ) (SVars K) := do
  let u ← onRng v.g.draw01
  Run.lift (if Fl.gt (v.ex (v.op.div (Fl.neg (Fl.abs (v.op.sub fo f0))) c.temp)) u then saAccept c i f else saReject c i)

/-- The point is accepted, lines 167-175. -/
def saDescend (c : SVars K) (i : Nat) (f : List (Fl K)) (f0 : Fl K) : Outcome (SVars K) := do
  let c ← saAccept c i f
  let fb ← Outcome.get c.bestF 0
  .ok (if Fl.le f0 fb then { c with bestF := f, bestX := c.xNew } else c)

/-- Decision about the point just evaluated, lines 166-187. -/
def saDecide (v : SaEnv K σ) (c : SVars K) (i : Nat) (f : List (Fl K)) : Run (St K σ) (SVars K) := do
  let f0 ← Run.lift (Outcome.get f 0)
  let fo ← Run.lift (Outcome.get c.fOld 0)
  if Fl.le f0 fo then Run.lift (saDescend c i f f0) else saBoltzmann v c i f f0 fo

/-- New value of component `i`, lines 159-161. -/
def saMove (v : SaEnv K σ) (P : AProb K) (c : SVars K) (i : Nat) : Run (St K σ) (List (Fl K)) := do
  let st ← Run.lift (Outcome.get c.step i)
  let l ← Run.lift (Outcome.get P.lb i)
  let u ← Run.lift (Outcome.get P.ub i)
  let xo ← Run.lift (Outcome.get c.xOld i)
  let width := v.op.mul st (v.op.sub u l)
  let w ← onRng (Rnd.uniformRealFromRange v.g v.op (Fl.stdMax (v.op.sub xo width) l) (Fl.stdMin (v.op.add xo width) u))
  Run.lift (Outcome.set c.xNew i w)

/-- Body of the loop over the components, lines 156-211; the local variables and `nter`. -/
def saComp (v : SaEnv K σ) (P : AProb K) (b : SVars K × Nat) (_ : Nat) : Run (St K σ) (SVars K × Nat) := do
  let i := (b.2 + 1) % P.info.nx
  let x ← saMove v P b.1 i
  let f ← eval P x
  let c ← saDecide v { b.1 with xNew := x } i f
  pure (c, i)

/-- Body of the loop over `kter`, lines 153-212. -/
def saBin (v : SaEnv K σ) (P : AProb K) (c : SVars K) (_ : Nat) : Run (St K σ) (SVars K) := do
  let i ← onRng (v.g.drawNat 0 ((P.info.nx + (2 ^ 64 - 1)) % 2 ^ 64))
  let r ← (List.range P.info.nx).foldlM (saComp v P) (c, i)
  pure r.1

/-- The adjusted step, lines 215-229. The constants .6 and .4 are not doubles; here they are exact. -/
def saStep (v : SaEnv K σ) (A : Sa K) (st : Fl K) (acp : Nat) : Fl K :=
  let ratio := v.op.div (v.cv acp) (v.cv A.bin)
  let st' :=
    if Fl.gt ratio (.fin (3 / 5)) then
      v.op.mul st (v.op.add v.op.one (v.op.div (v.op.mul (.fin 2) (v.op.sub ratio (.fin (3 / 5)))) (.fin (2 / 5))))
    else if Fl.lt ratio (.fin (2 / 5)) then
      v.op.div st (v.op.add v.op.one (v.op.mul (.fin 2) (v.op.div (v.op.sub (.fin (2 / 5)) ratio) (.fin (2 / 5)))))
    else st
  if Fl.gt st' A.start then A.start else st'

/-- Body of the loop of lines 214-230. -/
def saAdjust (v : SaEnv K σ) (A : Sa K) (c : SVars K) (i : Nat) : Run (St K σ) (SVars K) := do
  let a ← Run.lift (Outcome.get c.acp i)
  let acp ← Run.lift (Outcome.set c.acp i 0)
  let st ← Run.lift (Outcome.get c.step i)
  let step ← Run.lift (Outcome.set c.step i (saStep v A st a))
  pure { c with acp := acp, step := step }

/-- Body of the loop over `mter`, lines 151-231. -/
def saRange (v : SaEnv K σ) (P : AProb K) (A : Sa K) (c : SVars K) (_ : Nat) : Run (St K σ) (SVars K) := do
  let c ← (List.range A.bin).foldlM (saBin v P) c
  (List.range P.info.nx).foldlM (saAdjust v A) c

/-- Body of the loop over `jter`, lines 150-234. -/
def saTemp (v : SaEnv K σ) (P : AProb K) (A : Sa K) (tc : Fl K) (c : SVars K) (_ : Nat) : Run (St K σ) (SVars K) := do
  let c ← (List.range A.nR).foldlM (saRange v P A) c
  pure { c with temp := v.op.mul c.temp tc }

/-- `if (best_f[0] <= fit0[0]) replace_individual(pop, best_x, best_f)`, lines 236-238. -/
def saFinish (v : SaEnv K σ) (P : AProb K) (A : Sa K) (c : SVars K) (f0 : List (Fl K)) : Run (St K σ) Unit := do
  let fb ← Run.lift (Outcome.get c.bestF 0)
  let ff ← Run.lift (Outcome.get f0 0)
  if Fl.le fb ff then replaceIndividual v.toEnv P A.replace c.bestX c.bestF else pure ()

/-- `simulated_annealing::evolve`, simulated_annealing.cpp 94-240, without the log. -/
def saEvolve (v : SaEnv K σ) (P : AProb K) (A : Sa K) : Run (St K σ) Unit :=
  if P.info.nc ≠ 0 then Run.throw .invalidArgument
  else if P.info.nf ≠ 1 then Run.throw .invalidArgument
  else if P.info.stochastic then Run.throw .invalidArgument
  else do
    let s ← Run.get
    if s.pop.id.length = 0 then Run.throw .invalidArgument
    else do
      let xf ← selectIndividual v.toEnv P A.select
      let tc := v.pw (v.op.div A.tf A.ts) (v.op.div v.op.one (v.cv A.nT))
      let c ← (List.range A.nT).foldlM (saTemp v P A tc)
        ⟨xf.1, xf.1, xf.1, xf.2, xf.2, List.replicate P.info.nx A.start, List.replicate P.info.nx 0, A.ts⟩
      saFinish v P A c xf.2

end Verif.Alg
