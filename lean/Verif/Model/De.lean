import Verif.Model.Algo
import Verif.Model.Random

/-!
# Model of src/algorithms/de.cpp

The log and the screen output (src/algorithms/de.cpp 324-347) are not modelled.
-/

set_option autoImplicit false

namespace Verif.Alg

open Verif Prob

variable {K σ : Type} [Field K] [LinearOrder K]

/-- The parameters of `de`: include/pagmo/algorithms/de.hpp 192-197. -/
structure De (K : Type) where
  gens : Nat
  F : Fl K
  CR : Fl K
  variant : Nat
  ftol : Fl K
  xtol : Fl K
  deriving DecidableEq

/-- The constructor, de.cpp 51-63. NaN passes the checks of `F` and `CR`. -/
def deCtor (gens : Nat) (F CR : Fl K) (variant : Nat) (ftol xtol : Fl K) : Outcome (De K) :=
  if variant < 1 ∨ variant > 10 then .throws .invalidArgument
  else if Fl.lt CR (.fin 0) || Fl.lt F (.fin 0) || Fl.gt CR (.fin 1) || Fl.gt F (.fin 1) then .throws .invalidArgument
  else .ok ⟨gens, F, CR, variant, ftol, xtol⟩

/-! ## Random indexes -/

/-- Body of the loop of Durstenfeld's algorithm, de.cpp 145-149. The state is `r` (its first `j` elements) and `idxs`. -/
def pickStep (g : Gen K σ) (NP : Nat) (s : List Nat × List Nat) (j : Nat) : Run σ (List Nat × List Nat) := do
  let idx ← g.drawNat 0 (NP - 1 - j)
  let a ← Run.lift (Outcome.get s.2 idx)
  let b ← Run.lift (Outcome.get s.2 (NP - 1 - j))
  let l ← Run.lift (Outcome.set s.2 idx b)
  let l ← Run.lift (Outcome.set l (NP - 1 - j) a)
  pure (s.1 ++ [a], l)

/-- `k` indexes chosen at random out of `NP`, de.cpp 143-149. Here `k ≤ NP`. -/
def pickIdx (g : Gen K σ) (NP k : Nat) : Run σ (List Nat) := do
  let s ← (List.range k).foldlM (pickStep g NP) ([], List.range NP)
  pure s.1

/-! ## Mutation and crossover -/

/-- `popold[r[k]][n]` -/
def donor (po : List (List (Fl K))) (r : List Nat) (k n : Nat) : Outcome (Fl K) := do
  let i ← Outcome.get r k
  let x ← Outcome.get po i
  Outcome.get x n

/-- The value written to `tmp[n]`: de.cpp 158, 173, 187, 198, 209-210, 224, 235, 246, 257-258, 269-270. All values are
read here, also those the variant does not use. -/
def deGene (op : Fl.Ops K) (F : Fl K) (variant : Nat) (gb : List (Fl K)) (po : List (List (Fl K))) (r : List Nat)
    (tmp : List (Fl K)) (n : Nat) : Outcome (Fl K) := do
  let t ← Outcome.get tmp n
  let b ← Outcome.get gb n
  let p0 ← donor po r 0 n
  let p1 ← donor po r 1 n
  let p2 ← donor po r 2 n
  let p3 ← donor po r 3 n
  let p4 ← donor po r 4 n
  if variant = 1 ∨ variant = 6 then .ok (op.add b (op.mul F (op.sub p1 p2)))
  else if variant = 2 ∨ variant = 7 then .ok (op.add p0 (op.mul F (op.sub p1 p2)))
  else if variant = 3 ∨ variant = 8 then
    .ok (op.add (op.add t (op.mul F (op.sub b t))) (op.mul F (op.sub p0 p1)))
  else if variant = 4 ∨ variant = 9 then .ok (op.add b (op.mul (op.sub (op.sub (op.add p0 p1) p2) p3) F))
  else .ok (op.add p4 (op.mul (op.sub (op.sub (op.add p0 p1) p2) p3) F))

/-- Exponential crossover, for example de.cpp 157-161: `k` is the number of components that may still be changed,
`dim - L`. `L` is an `unsigned` in the code, larger dimensions are not considered. -/
def expCross (g : Gen K σ) (CR : Fl K) (dim : Nat) (gene : List (Fl K) → Nat → Outcome (Fl K)) :
    Nat → List (Fl K) → Nat → Run σ (List (Fl K))
  | 0, tmp, _ => pure tmp
  | k + 1, tmp, n => do
    let w ← Run.lift (gene tmp n)
    let tmp ← Run.lift (Outcome.set tmp n w)
    let u ← g.draw01
    if Fl.lt u CR && decide (0 < k) then expCross g CR dim gene k tmp ((n + 1) % dim) else pure tmp

/-- Body of the loop of the binomial crossover, for example de.cpp 222-227. The state is `tmp` and `n`. -/
def binStep (g : Gen K σ) (CR : Fl K) (dim : Nat) (gene : List (Fl K) → Nat → Outcome (Fl K))
    (s : List (Fl K) × Nat) (L : Nat) : Run σ (List (Fl K) × Nat) := do
  let u ← g.draw01
  if Fl.lt u CR || decide (L + 1 = dim) then do
    let w ← Run.lift (gene s.1 s.2)
    let tmp ← Run.lift (Outcome.set s.1 s.2 w)
    pure (tmp, (s.2 + 1) % dim)
  else pure (s.1, (s.2 + 1) % dim)

/-- Binomial crossover, for example de.cpp 221-228. -/
def binCross (g : Gen K σ) (CR : Fl K) (dim : Nat) (gene : List (Fl K) → Nat → Outcome (Fl K)) (tmp : List (Fl K))
    (n : Nat) : Run σ (List (Fl K)) := do
  let s ← (List.range dim).foldlM (binStep g CR dim gene) (tmp, n)
  pure s.1

/-- The two kinds of crossover: variants 1 to 5 and 6 to 10. -/
def deCross (g : Gen K σ) (op : Fl.Ops K) (A : De K) (dim : Nat) (gb : List (Fl K)) (po : List (List (Fl K)))
    (r : List Nat) (tmp : List (Fl K)) (n : Nat) : Run σ (List (Fl K)) :=
  if A.variant ≤ 5 then expCross g A.CR dim (deGene op A.F A.variant gb po r) dim tmp n
  else binCross g A.CR dim (deGene op A.F A.variant gb po r) tmp n

/-- Mutation, crossover and bound repair, de.cpp 142-279; `gb` is `gbIter`. -/
def deCandidate (g : Gen K σ) (op : Fl.Ops K) (A : De K) (lb ub gb : List (Fl K)) (po : List (List (Fl K)))
    (NP i : Nat) : Run σ (List (Fl K)) := do
  let r ← pickIdx g NP 5
  let tmp ← Run.lift (Outcome.get po i)
  let n ← g.drawNat 0 (lb.length - 1)
  let tmp ← deCross g op A lb.length gb po r tmp n
  Rnd.forceBoundsRandom g op tmp lb ub

/-! ## The generations -/

/-- The local variables of `evolve`, de.cpp 124-135. -/
structure DVars (K : Type) where
  old : List (List (Fl K))
  new : List (List (Fl K))
  fit : List (List (Fl K))
  gbX : List (Fl K)
  gbF : List (Fl K)
  gbIter : List (Fl K)

/-- Body of the loop over the population, de.cpp 141-296. -/
def deIndividual (v : Env K σ) (P : AProb K) (A : De K) (NP : Nat) (d : DVars K) (i : Nat) :
    Run (St K σ) (DVars K) := do
  let tmp ← onRng (deCandidate v.g v.op A P.lb P.ub d.gbIter d.old NP i)
  let f ← eval P tmp
  let a ← Run.lift (Outcome.get f 0)
  let fi ← Run.lift (Outcome.get d.fit i)
  let b ← Run.lift (Outcome.get fi 0)
  if Fl.le a b then do
    let fit ← Run.lift (Outcome.set d.fit i f)
    let new ← Run.lift (Outcome.set d.new i tmp)
    onPop (Pop.setXF v.sq P.info i tmp f)
    let c ← Run.lift (Outcome.get d.gbF 0)
    pure (if Fl.le a c then { d with fit := fit, new := new, gbX := tmp, gbF := f } else { d with fit := fit, new := new })
  else do
    let x ← Run.lift (Outcome.get d.old i)
    let new ← Run.lift (Outcome.set d.new i x)
    pure { d with new := new }

/-- Body of the loop de.cpp 306-308. -/
def flatStep (op : Fl.Ops K) (xw xb : List (Fl K)) (dx : Fl K) (i : Nat) : Outcome (Fl K) := do
  let a ← Outcome.get xw i
  let b ← Outcome.get xb i
  .ok (op.add dx (Fl.abs (op.sub a b)))

/-- The exit conditions, de.cpp 302-322: does `evolve` return now? -/
def flatEnough (v : Env K σ) (P : AProb K) (xtol ftol : Fl K) (p : Pop.State K) : Outcome Bool := do
  let bi ← Pop.bestIdx v.srt v.sq P.info p.f p.tol
  let wi ← Pop.worstIdx v.srt v.sq P.info p.f p.tol
  let xw ← Outcome.get p.x wi
  let xb ← Outcome.get p.x bi
  let dx ← (List.range P.info.nx).foldlM (flatStep v.op xw xb) (.fin 0)
  if Fl.lt dx xtol then .ok true
  else do
    let fw ← Outcome.get p.f wi
    let fb ← Outcome.get p.f bi
    let a ← Outcome.get fw 0
    let b ← Outcome.get fb 0
    .ok (Fl.lt (Fl.abs (v.op.sub a b)) ftol)

/-- Body of the main loop, de.cpp 139-322. -/
def deGen (v : Env K σ) (P : AProb K) (A : De K) (NP : Nat) (_ : Nat) (d : DVars K) : Run (St K σ) (DVars K × Bool) := do
  let d ← (List.range NP).foldlM (deIndividual v P A NP) d
  let s ← Run.get
  let stop ← Run.lift (flatEnough v P A.xtol A.ftol s.pop)
  pure ({ d with gbIter := d.gbX, old := d.new, new := d.old }, stop)

/-- `de::evolve`, de.cpp 76-353. -/
def deEvolve (v : Env K σ) (P : AProb K) (A : De K) (fuel : Nat) : Run (St K σ) Unit :=
  if P.info.nc ≠ 0 then Run.throw .invalidArgument
  else if P.info.nf ≠ 1 then Run.throw .invalidArgument
  else if P.info.stochastic then Run.throw .invalidArgument
  else if A.gens = 0 then pure ()
  else do
    let s ← Run.get
    if s.pop.id.length < 5 then Run.throw .invalidArgument
    else do
      let bi ← Run.lift (Pop.bestIdx v.srt v.sq P.info s.pop.f s.pop.tol)
      let gbX ← Run.lift (Outcome.get s.pop.x bi)
      let gbF ← Run.lift (Outcome.get s.pop.f bi)
      let _ ← genLoop (deGen v P A s.pop.id.length) A.gens fuel 1 ⟨s.pop.x, s.pop.x, s.pop.f, gbX, gbF, gbX⟩
      pure ()

end Verif.Alg
