import Verif.Model.De

/-!
# Model of src/algorithms/sea.cpp

The log and the screen output are not modelled.
-/

set_option autoImplicit false

namespace Verif.Alg

open Verif Prob

variable {K σ : Type} [Field K] [LinearOrder K]

/-- Body of the loop over the components, sea.cpp 108-113. The state is `offspring` and `mut`. -/
def seaGene (g : Gen K σ) (op : Fl.Ops K) (lb ub : List (Fl K)) (s : List (Fl K) × Nat) (j : Nat) :
    Run σ (List (Fl K) × Nat) := do
  let u ← g.draw01
  if Fl.lt u (op.div op.one (.fin (lb.length : K))) then do
    let l ← Run.lift (Outcome.get lb j)
    let h ← Run.lift (Outcome.get ub j)
    let w ← Rnd.uniformRealFromRange g op l h
    let x ← Run.lift (Outcome.set s.1 j w)
    pure (x, s.2 + 1)
  else pure s

/-- `while (!mut)`, sea.cpp 106-114; the number is the fuel. -/
def seaMutate (g : Gen K σ) (op : Fl.Ops K) (lb ub : List (Fl K)) : Nat → List (Fl K) → Run σ (List (Fl K))
  | 0, _ => Run.lift .nofuel
  | n + 1, x => do
    let s ← (List.range lb.length).foldlM (seaGene g op lb ub) (x, 0)
    if s.2 = 0 then seaMutate g op lb ub n s.1 else pure s.1

/-- Re-evaluation of the whole population, sea.cpp 99-101 and src/algorithms/sga.cpp 228-230. -/
def reEvaluate (v : Env K σ) (P : AProb K) (_ : Unit) (j : Nat) : Run (St K σ) Unit := do
  let s ← Run.get
  let x ← Run.lift (Outcome.get s.pop.x j)
  let f ← eval P x
  onPop (Pop.setXF v.sq P.info j x f)

/-- The stochastic case, sea.cpp 96-102. `set_seed` changes what the fitness function returns from now on: `P.fit`
depends on the calls made so far, so it stands for the functions of all the seeds drawn. Only the draw is modelled. -/
def reSeed (v : Env K σ) (P : AProb K) : Run (St K σ) Unit :=
  if P.info.stochastic then do
    let _ ← onRng (v.g.drawNat 0 (2 ^ 32 - 1))
    let s ← Run.get
    (List.range s.pop.id.length).foldlM (reEvaluate v P) ()
  else pure ()

/-- Insertion of the offspring, sea.cpp 115-123. -/
def seaInsert (v : Env K σ) (P : AProb K) (b : Nat × Nat) (x f : List (Fl K)) : Run (St K σ) (Nat × Nat) := do
  let s ← Run.get
  let fw ← Run.lift (Outcome.get s.pop.f b.2)
  let w ← Run.lift (Outcome.get fw 0)
  let o ← Run.lift (Outcome.get f 0)
  if Fl.ge (v.op.sub w o) (.fin 0) then do
    onPop (Pop.setXF v.sq P.info b.2 x f)
    let s ← Run.get
    let fb ← Run.lift (Outcome.get s.pop.f b.1)
    let b0 ← Run.lift (Outcome.get fb 0)
    let wi ← Run.lift (Pop.worstIdx v.srt v.sq P.info s.pop.f s.pop.tol)
    pure (if Fl.ge (v.op.sub b0 o) (.fin 0) then b.2 else b.1, wi)
  else pure b

/-- Body of the main loop, sea.cpp 95-155. The local variables are `best_idx` and `worst_idx`; `m` is the fuel of the
inner loop. -/
def seaGen (v : Env K σ) (P : AProb K) (m : Nat) (_ : Nat) (b : Nat × Nat) : Run (St K σ) ((Nat × Nat) × Bool) := do
  reSeed v P
  let s ← Run.get
  let x ← Run.lift (Outcome.get s.pop.x b.1)
  let x ← onRng (seaMutate v.g v.op P.lb P.ub m x)
  let f ← eval P x
  let b ← seaInsert v P b x f
  pure (b, false)

/-- `sea::evolve`, sea.cpp 54-157. -/
def seaEvolve (v : Env K σ) (P : AProb K) (gens m fuel : Nat) : Run (St K σ) Unit :=
  if P.info.nc ≠ 0 then Run.throw .invalidArgument
  else if P.info.nf ≠ 1 then Run.throw .invalidArgument
  else if gens = 0 then pure ()
  else do
    let s ← Run.get
    if s.pop.id.length = 0 then Run.throw .invalidArgument
    else do
      let bi ← Run.lift (Pop.bestIdx v.srt v.sq P.info s.pop.f s.pop.tol)
      let wi ← Run.lift (Pop.worstIdx v.srt v.sq P.info s.pop.f s.pop.tol)
      let _ ← genLoop (seaGen v P m) gens fuel 1 (bi, wi)
      pure ()

end Verif.Alg
