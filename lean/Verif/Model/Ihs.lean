import Verif.Model.Sga
import Verif.Model.Random
import Verif.Model.Crowding

/-!
# Model of src/algorithms/ihs.cpp

The log and the screen output (src/algorithms/ihs.cpp 199-205) are not modelled.
-/

set_option autoImplicit false

namespace Verif.Alg

open Verif Prob Genetic MO Rnd

variable {K σ : Type} [Field K] [LinearOrder K]

/-- What `ihs` is run with, besides `Env`: `std::exp` and `std::log`. -/
structure IhsEnv (K σ : Type) extends Env K σ where
  ex : Fl K → Fl K
  lg : Fl K → Fl K

/-- The parameters. -/
structure Ihs (K : Type) where
  gens : Nat
  phmcr : Fl K
  pparMin : Fl K
  pparMax : Fl K
  bwMin : Fl K
  bwMax : Fl K

/-- The constructor, ihs.cpp 51-67. -/
def ihsCtor (gens : Nat) (phmcr pparMin pparMax bwMin bwMax : Fl K) : Outcome (Ihs K) :=
  if Fl.gt phmcr (.fin 1) || Fl.lt phmcr (.fin 0) || Fl.gt pparMin (.fin 1) || Fl.lt pparMin (.fin 0) || Fl.gt pparMax (.fin 1) ||
      Fl.lt pparMax (.fin 0) then .throws .invalidArgument
  else if Fl.gt pparMin pparMax then .throws .invalidArgument
  else if Fl.le bwMin (.fin 0) || Fl.lt bwMax bwMin then .throws .invalidArgument
  else .ok ⟨gens, phmcr, pparMin, pparMax, bwMin, bwMax⟩

/-- `m_ppar_min + ((m_ppar_max - m_ppar_min) * gen) / m_gen`, ihs.cpp 128. -/
def ihsPpar (v : IhsEnv K σ) (A : Ihs K) (gen : Nat) : Fl K :=
  v.op.add A.pparMin (v.op.div (v.op.mul (v.op.sub A.pparMax A.pparMin) (.fin (gen : K))) (.fin (A.gens : K)))

/-- `m_bw_max * std::exp(c * gen)` with `c = std::log(m_bw_min / m_bw_max) / m_gen`, ihs.cpp 119, 129. -/
def ihsBw (v : IhsEnv K σ) (A : Ihs K) (gen : Nat) : Fl K :=
  v.op.mul A.bwMax (v.ex (v.op.mul (v.op.div (v.lg (v.op.div A.bwMin A.bwMax)) (.fin (A.gens : K))) (.fin (gen : K))))

/-- Component `i` of a randomly chosen individual, ihs.cpp 136, 152. -/
def ihsMemory (v : IhsEnv K σ) (xs : List (List (Fl K))) (i : Nat) : Run σ (Fl K) := do
  let k ← v.g.drawNat 0 (xs.length - 1)
  let x ← Run.lift (Outcome.get xs k)
  Run.lift (Outcome.get x i)

/-- New value of a continuous component, ihs.cpp 134-145. -/
def ihsReal (v : IhsEnv K σ) (A : Ihs K) (xs : List (List (Fl K))) (gen i : Nat) (l u : Fl K) : Run σ (Fl K) := do
  let r ← v.g.draw01
  if Fl.lt r A.phmcr then do
    let w ← ihsMemory v xs i
    let r ← v.g.draw01
    if Fl.lt r (ihsPpar v A gen) then do
      let r ← v.g.draw01
      pure (v.op.add w (v.op.mul (v.op.mul (v.op.mul two (v.op.sub half r)) (ihsBw v A gen)) (v.op.sub u l)))
    else pure w
  else uniformRealFromRange v.g v.op l u

/-- New value of an integer component, ihs.cpp 150-164. -/
def ihsInt [FloorRing K] (v : IhsEnv K σ) (A : Ihs K) (xs : List (List (Fl K))) (gen i : Nat) (l u : Fl K) : Run σ (Fl K) := do
  let r ← v.g.draw01
  if Fl.lt r A.phmcr then do
    let w ← ihsMemory v xs i
    let r ← v.g.draw01
    if Fl.lt r (ihsPpar v A gen) then do
      let pitch := trunc (v.op.add v.op.one (v.op.mul (ihsBw v A gen) (v.op.sub u l)))
      let d ← uniformIntegralFromRange v.g (v.op.sub w pitch) (v.op.add w pitch)
      pure (v.op.add w d)
    else pure w
  else uniformIntegralFromRange v.g l u

/-- New value of component `i`: the first loop (ihs.cpp 133-146) is over the continuous part, the second one (149-165) over
the integer part. `lu_diff[i]` (110-113) is `ub[i] - lb[i]`. -/
def ihsValue [FloorRing K] (v : IhsEnv K σ) (P : AProb K) (A : Ihs K) (xs : List (List (Fl K))) (gen i : Nat) (l u : Fl K) : Run σ (Fl K) :=
  if i < P.info.nx - P.nix then ihsReal v A xs gen i l u else ihsInt v A xs gen i l u

/-- Body of the two loops that make a new decision vector, ihs.cpp 133-165. -/
def ihsGene [FloorRing K] (v : IhsEnv K σ) (P : AProb K) (A : Ihs K) (xs : List (List (Fl K))) (gen : Nat) (x : List (Fl K)) (i : Nat) :
    Run σ (List (Fl K)) := do
  let l ← Run.lift (Outcome.get P.lb i)
  let u ← Run.lift (Outcome.get P.ub i)
  let w ← ihsValue v P A xs gen i l u
  Run.lift (Outcome.set x i w)

/-- Insertion for one objective, ihs.cpp 172-182. -/
def ihsSingle (v : IhsEnv K σ) (P : AProb K) (x f : List (Fl K)) : Run (St K σ) Unit := do
  let s ← Run.get
  let w ← Run.lift (Pop.worstIdx v.srt v.sq P.info s.pop.f s.pop.tol)
  let fw ← Run.lift (Outcome.get s.pop.f w)
  if P.info.nc = 0 then do
    let a ← Run.lift (Outcome.get fw 0)
    let b ← Run.lift (Outcome.get f 0)
    if Fl.ge a b then onPop (Pop.setXF v.sq P.info w x f) else pure ()
  else do
    let better ← Run.lift (Con.compareFc v.sq f fw P.info.nec s.pop.tol)
    if better then onPop (Pop.setXF v.sq P.info w x f) else pure ()

/-- Body of the loop that rewrites the population, ihs.cpp 190-196: it reads from the population it is writing to. -/
def ihsRewrite (v : IhsEnv K σ) (P : AProb K) (x f : List (Fl K)) (best : List Nat) (_ : Unit) (i : Nat) : Run (St K σ) Unit := do
  let b ← Run.lift (Outcome.get best i)
  let s ← Run.get
  if b = s.pop.id.length then onPop (Pop.setXF v.sq P.info i x f)
  else do
    let y ← Run.lift (Outcome.get s.pop.x b)
    let h ← Run.lift (Outcome.get s.pop.f b)
    onPop (Pop.setXF v.sq P.info i y h)

/-- Insertion for several objectives, ihs.cpp 183-197. -/
def ihsMulti (v : IhsEnv K σ) (P : AProb K) (x f : List (Fl K)) : Run (St K σ) Unit := do
  let s ← Run.get
  let best ← Run.lift (selectBestNMo v.op v.srt (s.pop.f ++ [f]) s.pop.id.length)
  (List.range s.pop.id.length).foldlM (ihsRewrite v P x f best) ()

/-- Body of the main loop, ihs.cpp 126-206. The local variable is `new_x`. -/
def ihsGen [FloorRing K] (v : IhsEnv K σ) (P : AProb K) (A : Ihs K) (fuel gen : Nat) (x : List (Fl K)) :
    Run (St K σ) (List (Fl K) × Bool) := do
  let s ← Run.get
  let x ← onRng ((List.range P.info.nx).foldlM (ihsGene v P A s.pop.x gen) x)
  let x ← Run.lift (forceBoundsReflection v.op fuel x P.lb P.ub)
  let f ← eval P x
  if P.info.nobj = 1 then do
    ihsSingle v P x f
    pure (x, false)
  else do
    ihsMulti v P x f
    pure (x, false)

/-- `ihs::evolve`, ihs.cpp 75-208. -/
def ihsEvolve [FloorRing K] (v : IhsEnv K σ) (P : AProb K) (A : Ihs K) (fuel : Nat) : Run (St K σ) Unit := do
  let s ← Run.get
  if A.gens = 0 then pure ()
  else if s.pop.id.length = 0 then Run.throw .invalidArgument
  else if P.info.nc ≠ 0 ∧ P.info.nobj > 1 then Run.throw .invalidArgument
  else if P.info.stochastic then Run.throw .invalidArgument
  else do
    let _ ← genLoop (ihsGen v P A fuel) A.gens fuel 1 (List.replicate P.info.nx (.fin 0))
    pure ()

end Verif.Alg
