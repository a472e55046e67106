import Verif.Model.De

/-!
# Model of src/algorithms/bee_colony.cpp

The log and the screen output are not modelled. The counter of the loop in lines 159-161 is an `unsigned`; problems with
2^32 variables or more are not considered.
-/

set_option autoImplicit false

namespace Verif.Alg

open Verif Prob

variable {K σ : Type} [Field K] [LinearOrder K]

/-- `m_gen`, `m_limit`: include/pagmo/algorithms/bee_colony.hpp 171-172. -/
structure Bee where
  gens : Nat
  limit : Nat

/-- `bee_colony::bee_colony`, bee_colony.cpp 48-54. -/
def beeCtor (gens limit : Nat) : Outcome Bee :=
  if limit = 0 then .throws .invalidArgument else .ok ⟨gens, limit⟩

/-- The local variables `X`, `fit`, `trial`, bee_colony.cpp 104-106. -/
structure BeeVars (K : Type) where
  xs : List (List (Fl K))
  fit : List (List (Fl K))
  trial : List Nat

/-- Body of the loop that looks for the largest counter, bee_colony.cpp 117-121. -/
def beeMaxStep (trial : List Nat) (mi i : Nat) : Outcome Nat := do
  let a ← Outcome.get trial i
  let b ← Outcome.get trial mi
  pure (if a > b then i else mi)

/-- `mi`, bee_colony.cpp 116-121. -/
def beeMax (trial : List Nat) (NP : Nat) : Outcome Nat := (List.range' 1 (NP - 1)).foldlM (beeMaxStep trial) 0

/-- Shift into the bounds, bee_colony.cpp 139-144 and 199-204. -/
def beeClamp (l u w : Fl K) : Fl K :=
  let w := if Fl.lt w l then l else w
  if Fl.gt w u then u else w

/-- The mutated solution, bee_colony.cpp 128-144 and 188-204: `newsol` and `comp2change`. -/
def beeCandidate (v : Env K σ) (P : AProb K) (NP : Nat) (xs : List (List (Fl K))) (i : Nat) : Run σ (List (Fl K) × Nat) := do
  let x ← Run.lift (Outcome.get xs i)
  let j ← v.g.drawNat 0 (P.info.nx - 1)
  let k ← v.g.drawNat 0 (NP - 2)
  let k := if k ≥ i then k + 1 else k
  let phi ← v.g.drawReal v.op (.fin (-1)) (.fin 1)
  let a ← Run.lift (Outcome.get x j)
  let z ← Run.lift (Outcome.get xs k)
  let b ← Run.lift (Outcome.get z j)
  let l ← Run.lift (Outcome.get P.lb j)
  let u ← Run.lift (Outcome.get P.ub j)
  let y ← Run.lift (Outcome.set x j (beeClamp l u (v.op.add a (v.op.mul phi (v.op.sub a b)))))
  pure (y, j)

/-- A bee at the food source `i`, bee_colony.cpp 128-154 and 188-214. -/
def beeTry (v : Env K σ) (P : AProb K) (NP : Nat) (c : BeeVars K) (i : Nat) : Run (St K σ) (BeeVars K) := do
  let yj ← onRng (beeCandidate v P NP c.xs i)
  let f ← eval P yj.1
  let f0 ← Run.lift (Outcome.get f 0)
  let fi ← Run.lift (Outcome.get c.fit i)
  let old ← Run.lift (Outcome.get fi 0)
  if Fl.lt f0 old then do
    let fi ← Run.lift (Outcome.set fi 0 f0)
    let fit ← Run.lift (Outcome.set c.fit i fi)
    let x ← Run.lift (Outcome.get c.xs i)
    let w ← Run.lift (Outcome.get yj.1 yj.2)
    let x ← Run.lift (Outcome.set x yj.2 w)
    let xs ← Run.lift (Outcome.set c.xs i x)
    onPop (Pop.setXF v.sq P.info i yj.1 f)
    let trial ← Run.lift (Outcome.set c.trial i 0)
    pure ⟨xs, fit, trial⟩
  else do
    let t ← Run.lift (Outcome.get c.trial i)
    let trial ← Run.lift (Outcome.set c.trial i (incU t))
    pure { c with trial := trial }

/-- Body of the loop of the employed bees, bee_colony.cpp 126-156. -/
def beeEmployed (v : Env K σ) (P : AProb K) (limit NP mi : Nat) (c : BeeVars K) (i : Nat) : Run (St K σ) (BeeVars K) := do
  let t ← Run.lift (Outcome.get c.trial i)
  if t < limit ∨ i ≠ mi then beeTry v P NP c i else pure c

/-- Body of the loop that draws a new point, bee_colony.cpp 159-161. -/
def beeDraw (v : Env K σ) (P : AProb K) (x : List (Fl K)) (j : Nat) : Run σ (List (Fl K)) := do
  let l ← Run.lift (Outcome.get P.lb j)
  let u ← Run.lift (Outcome.get P.ub j)
  let w ← Rnd.uniformRealFromRange v.g v.op l u
  Run.lift (Outcome.set x j w)

/-- The scout, bee_colony.cpp 159-163. `pop.set_x` evaluates the point and calls `set_xf`, src/population.cpp 539-542. -/
def beeScout (v : Env K σ) (P : AProb K) (mi : Nat) (c : BeeVars K) : Run (St K σ) (BeeVars K) := do
  let x ← Run.lift (Outcome.get c.xs mi)
  let x ← onRng ((List.range P.info.nx).foldlM (beeDraw v P) x)
  let xs ← Run.lift (Outcome.set c.xs mi x)
  let f ← eval P x
  onPop (Pop.setXF v.sq P.info mi x f)
  let trial ← Run.lift (Outcome.set c.trial mi 0)
  pure { c with xs := xs, trial := trial }

/-- The scout phase, bee_colony.cpp 122-125 and 158-164; `t` is `trial[mi]` before the employed bees. -/
def beeScoutPhase (v : Env K σ) (P : AProb K) (limit mi t : Nat) (c : BeeVars K) : Run (St K σ) (BeeVars K) :=
  if t ≥ limit then beeScout v P mi c else pure c

/-- The weight of a food source, bee_colony.cpp 170-174. -/
def beeWeight (op : Fl.Ops K) (f : Fl K) : Fl K :=
  if Fl.ge f op.zero then op.div op.one (op.add op.one f) else op.sub op.one f

/-- Body of the loop over the weights, bee_colony.cpp 169-176; the state is `p` (so far) and `sump`. -/
def beeSumStep (op : Fl.Ops K) (fit : List (List (Fl K))) (s : List (Fl K) × Fl K) (i : Nat) : Outcome (List (Fl K) × Fl K) := do
  let fi ← Outcome.get fit i
  let f ← Outcome.get fi 0
  pure (s.1 ++ [beeWeight op f], op.add s.2 (beeWeight op f))

/-- The probabilities, bee_colony.cpp 167-179. -/
def beeWeights (op : Fl.Ops K) (fit : List (List (Fl K))) (NP : Nat) : Outcome (List (Fl K)) := do
  let s ← (List.range NP).foldlM (beeSumStep op fit) ([], op.zero)
  pure (s.1.map (fun w => op.div w s.2))

/-- The loop of the onlookers, bee_colony.cpp 183-217. The arguments: the fuel, `t`, `s` and the local variables. -/
def beeLook (v : Env K σ) (P : AProb K) (NP : Nat) (p : List (Fl K)) : Nat → Nat → Nat → BeeVars K → Run (St K σ) (BeeVars K)
  | 0, _, _, _ => Run.lift .nofuel
  | m + 1, t, i, c =>
    if t < NP then do
      let r ← onRng v.g.draw01
      let w ← Run.lift (Outcome.get p i)
      if Fl.lt r w then do
        let c ← beeTry v P NP c i
        beeLook v P NP p m (t + 1) ((i + 1) % NP) c
      else beeLook v P NP p m t ((i + 1) % NP) c
    else pure c

/-- Body of the main loop, bee_colony.cpp 115-217; `m` is the fuel of the loop of the onlookers. -/
def beeGen (v : Env K σ) (P : AProb K) (limit NP m : Nat) (_ : Nat) (c : BeeVars K) : Run (St K σ) (BeeVars K × Bool) := do
  let mi ← Run.lift (beeMax c.trial NP)
  let t ← Run.lift (Outcome.get c.trial mi)
  let c ← (List.range NP).foldlM (beeEmployed v P limit NP mi) c
  let c ← beeScoutPhase v P limit mi t c
  let p ← Run.lift (beeWeights v.op c.fit NP)
  let c ← beeLook v P NP p m 0 0 c
  pure (c, false)

/-- `bee_colony::evolve`, bee_colony.cpp 65-237. -/
def beeEvolve (v : Env K σ) (P : AProb K) (A : Bee) (m fuel : Nat) : Run (St K σ) Unit :=
  if P.info.nc ≠ 0 then Run.throw .invalidArgument
  else if P.info.nf ≠ 1 then Run.throw .invalidArgument
  else if P.info.stochastic then Run.throw .invalidArgument
  else do
    let s ← Run.get
    if s.pop.id.length < 2 then Run.throw .invalidArgument
    else if A.gens = 0 then pure ()
    else do
      let _ ← genLoop (beeGen v P A.limit s.pop.id.length m) A.gens fuel 1
        ⟨s.pop.x, s.pop.f, List.replicate s.pop.id.length 0⟩
      pure ()

end Verif.Alg
