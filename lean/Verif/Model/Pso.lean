import Verif.Model.Algo
import Verif.Model.Random
import Mathlib.Data.Nat.Sqrt

/-!
# Model of src/algorithms/pso.cpp

The log and the screen output are not modelled. `fit` (pso.cpp 153) is only read right after it is written and is not
kept. What `m_V` is after an exception is not modelled.
-/

set_option autoImplicit false

namespace Verif.Alg

open Verif Prob

variable {K σ : Type} [Field K] [LinearOrder K]

/-- The parameters, include/pagmo/algorithms/pso.hpp 242-256. -/
structure Pso (K : Type) where
  gens : Nat
  omega : Fl K
  eta1 : Fl K
  eta2 : Fl K
  maxVel : Fl K
  variant : Nat
  topology : Nat
  param : Nat
  memory : Bool
deriving DecidableEq

/-- `pso::pso`, pso.cpp 74-108. -/
def psoCtor (gens : Nat) (omega eta1 eta2 maxVel : Fl K) (variant topology param : Nat) (memory : Bool) : Outcome (Pso K) :=
  if Fl.lt omega (.fin 0) || Fl.gt omega (.fin 1) then .throws .invalidArgument
  else if Fl.lt eta1 (.fin 0) || Fl.lt eta2 (.fin 0) || Fl.gt eta1 (.fin 4) || Fl.gt eta2 (.fin 4) then .throws .invalidArgument
  else if Fl.le maxVel (.fin 0) || Fl.gt maxVel (.fin 1) then .throws .invalidArgument
  else if variant < 1 ∨ variant > 6 then .throws .invalidArgument
  else if topology < 1 ∨ topology > 4 then .throws .invalidArgument
  else if param < 1 then .throws .invalidArgument
  else .ok ⟨gens, omega, eta1, eta2, maxVel, variant, topology, param, memory⟩

/-! ### Topologies -/

/-- The index on the left, pso.cpp 588-592: `std::size_t` wraps around. -/
def psoLeft (n p j : Nat) : Nat := if p < j then (p + (2 ^ 64 - j) + n) % 2 ^ 64 else p - j

/-- The index on the right, pso.cpp 595-599. -/
def psoRight (n p j : Nat) : Nat := if p + j ≥ n then p + j - n else p + j

/-- `initialize_topology__lbest`, pso.cpp 582-602. -/
def psoRing (n param : Nat) : List (List Nat) :=
  (List.range n).map (fun p =>
    (List.range' 1 (param / 2)).reverse.map (psoLeft n p) ++ (List.range' 1 (param / 2)).map (psoRight n p))

/-- The number of rows, pso.cpp 630-631: counted down; a division by zero is undefined. -/
def psoRows (n : Nat) : Nat → Outcome Nat
  | 0 => .ub
  | r + 1 => if n % (r + 1) = 0 then .ok (r + 1) else psoRows n r

/-- `pso_vonNeumann_neighb_diff`, pso.cpp 67. -/
def psoDiff : List (ℤ × ℤ) := [(-1, 0), (1, 0), (0, -1), (0, 1)]

/-- A coordinate with wraparound, pso.cpp 639-642; `%` of C++ is the remainder of truncated division. -/
def psoWrap (z c : ℤ) : ℤ := if z.tmod c < 0 then c + z.tmod c else z.tmod c

/-- The index of a neighbour, pso.cpp 635-644. -/
def psoCell (cols rows p : Nat) (d : ℤ × ℤ) : Nat :=
  (psoWrap ((p / cols : Nat) + d.2) rows * cols + psoWrap ((p % cols : Nat) + d.1) cols).toNat

/-- `initialize_topology__von`, pso.cpp 622-647. The size is assumed to fit into an `int`; then `sqrt` (of a double) is
the integer square root after truncation. -/
def psoVon (n : Nat) : Outcome (List (List Nat)) := do
  let rows ← psoRows n (Nat.sqrt n)
  pure ((List.range n).map (fun p => psoDiff.map (psoCell (n / rows) rows p)))

/-- `neighb[k].push_back(p)` -/
def psoPush (nb : List (List Nat)) (k p : Nat) : Outcome (List (List Nat)) := do
  let l ← Outcome.get nb k
  Outcome.set nb k (l ++ [p])

/-- Body of the inner loop, pso.cpp 690. -/
def psoInform (g : Gen K σ) (n p : Nat) (nb : List (List Nat)) (_ : Nat) : Run σ (List (List Nat)) := do
  let k ← g.drawNat 0 (n - 1)
  Run.lift (psoPush nb k p)

/-- Body of the loop, pso.cpp 685-693. -/
def psoInforms (g : Gen K σ) (n param : Nat) (nb : List (List Nat)) (p : Nat) : Run σ (List (List Nat)) := do
  let nb ← Run.lift (psoPush nb p p)
  (List.range' 1 (param - 1)).foldlM (psoInform g n p) nb

/-- `initialize_topology__adaptive_random`, pso.cpp 672-695. -/
def psoRandom (g : Gen K σ) (n param : Nat) : Run σ (List (List Nat)) :=
  (List.range n).foldlM (psoInforms g n param) (List.replicate n [])

/-- Body of the loop, pso.cpp 519-521; the state is `bnidx`. -/
def psoBetter (lbfit : List (List (Fl K))) (b q : Nat) : Outcome Nat := do
  let fq ← Outcome.get lbfit q
  let a ← Outcome.get fq 0
  let fb ← Outcome.get lbfit b
  let c ← Outcome.get fb 0
  pure (if Fl.le a c then q else b)

/-- `particle__get_best_neighbor`, pso.cpp 497-525, for a topology other than gbest. -/
def psoBest (nb : List (List Nat)) (lbX lbfit : List (List (Fl K))) (p : Nat) : Outcome (List (Fl K)) := do
  let l ← Outcome.get nb p
  let q ← Outcome.get l 0
  let q ← (l.drop 1).foldlM (psoBetter lbfit) q
  Outcome.get lbX q

/-! ### Velocities -/

/-- The largest velocity of a component, pso.cpp 176. -/
def psoWidth (op : Fl.Ops K) (A : Pso K) (l u : Fl K) : Fl K := op.mul (op.sub u l) A.maxVel

/-- `minv`, pso.cpp 174-179 -/
def psoMinv (op : Fl.Ops K) (P : AProb K) (A : Pso K) : List (Fl K) :=
  List.zipWith (fun l u => op.mul (.fin (-1)) (psoWidth op A l u)) P.lb P.ub

/-- `maxv`, pso.cpp 174-179 -/
def psoMaxv (op : Fl.Ops K) (P : AProb K) (A : Pso K) : List (Fl K) := List.zipWith (psoWidth op A) P.lb P.ub

/-- Body of the inner loop, pso.cpp 195. -/
def psoDrawV (v : Env K σ) (P : AProb K) (A : Pso K) (w : List (Fl K)) (j : Nat) : Run σ (List (Fl K)) := do
  let l ← Run.lift (Outcome.get (psoMinv v.op P A) j)
  let u ← Run.lift (Outcome.get (psoMaxv v.op P A) j)
  let z ← Rnd.uniformRealFromRange v.g v.op l u
  Run.lift (Outcome.set w j z)

/-- Body of the outer loop, pso.cpp 193-197. -/
def psoDrawRow (v : Env K σ) (P : AProb K) (A : Pso K) (V : List (List (Fl K))) (i : Nat) : Run σ (List (List (Fl K))) := do
  let w ← Run.lift (Outcome.get V i)
  let w ← (List.range P.info.nx).foldlM (psoDrawV v P A) w
  Run.lift (Outcome.set V i w)

/-- `m_V` before the main loop, pso.cpp 190-198. -/
def psoInitV (v : Env K σ) (P : AProb K) (A : Pso K) (n : Nat) (V : List (List (Fl K))) : Run σ (List (List (Fl K))) :=
  if V.length ≠ n ∨ A.memory = false then
    (List.range n).foldlM (psoDrawRow v P A) (List.replicate n (List.replicate P.info.nx v.op.zero))
  else pure V

/-- The random numbers of a component: `r1` and `r2`, pso.cpp 243-244, 255, 264-265, 276, 298-299; in the variants 2 and 4
`r1` is used in the place of `r2`. -/
def psoPair (g : Gen K σ) (variant : Nat) : Run σ (Fl K × Fl K) := do
  let r1 ← g.draw01
  if variant = 2 ∨ variant = 4 then pure (r1, r1)
  else do
    let r2 ← g.draw01
    pure (r1, r2)

/-- The new velocity, pso.cpp 245-246, 256-257, 267-268, 278-279, 300-302. -/
def psoFormula (op : Fl.Ops K) (A : Pso K) (r1 r2 w l x b : Fl K) : Fl K :=
  if A.variant = 5 then
    op.mul A.omega (op.add (op.add w (op.mul (op.mul A.eta1 r1) (op.sub l x))) (op.mul (op.mul A.eta2 r2) (op.sub b x)))
  else
    op.add (op.add (op.mul A.omega w) (op.mul (op.mul A.eta1 r1) (op.sub l x))) (op.mul (op.mul A.eta2 r2) (op.sub b x))

/-- One component. -/
def psoVelAt (op : Fl.Ops K) (A : Pso K) (lbx x b : List (Fl K)) (r : Fl K × Fl K) (w : List (Fl K)) (d : Nat) :
    Outcome (List (Fl K)) := do
  let wd ← Outcome.get w d
  let l ← Outcome.get lbx d
  let xd ← Outcome.get x d
  let bd ← Outcome.get b d
  Outcome.set w d (psoFormula op A r.1 r.2 wd l xd bd)

/-- Body of the loops with random numbers of their own for every component, pso.cpp 242-247, 254-258, 297-303. -/
def psoVelOwn (v : Env K σ) (A : Pso K) (lbx x b w : List (Fl K)) (d : Nat) : Run σ (List (Fl K)) := do
  let r ← psoPair v.g A.variant
  Run.lift (psoVelAt v.op A lbx x b r w d)

/-- Body of the innermost loop, pso.cpp 320. -/
def psoForce (v : Env K σ) (A : Pso K) (lbX : List (List (Fl K))) (xd : Fl K) (d : Nat) (acc : Fl K) (q : Nat) : Run σ (Fl K) := do
  let r ← v.g.draw01
  let l ← Run.lift (Outcome.get lbX q)
  let ld ← Run.lift (Outcome.get l d)
  pure (v.op.add acc (v.op.mul (v.op.mul r (v.op.add A.eta1 A.eta2)) (v.op.sub ld xd)))

/-- Body of the loop of the fully informed variant, pso.cpp 317-323. -/
def psoFips (v : Env K σ) (A : Pso K) (nbp : List Nat) (lbX : List (List (Fl K))) (x w : List (Fl K)) (d : Nat) : Run σ (List (Fl K)) := do
  let xd ← Run.lift (Outcome.get x d)
  let sum ← nbp.foldlM (psoForce v A lbX xd d) v.op.zero
  let wd ← Run.lift (Outcome.get w d)
  Run.lift (Outcome.set w d (v.op.mul A.omega (v.op.add wd (v.op.div sum (.fin (v.g.ofInt nbp.length))))))

/-- The velocity of a particle by the formula of the variant, pso.cpp 239-324. -/
def psoVel (v : Env K σ) (P : AProb K) (A : Pso K) (nbp : List Nat) (lbX : List (List (Fl K))) (lbx x b w : List (Fl K)) :
    Run σ (List (Fl K)) :=
  if A.variant = 6 then (List.range P.info.nx).foldlM (psoFips v A nbp lbX x) w
  else if A.variant = 3 ∨ A.variant = 4 then do
    let r ← psoPair v.g A.variant
    Run.lift ((List.range P.info.nx).foldlM (psoVelAt v.op A lbx x b r) w)
  else (List.range P.info.nx).foldlM (psoVelOwn v A lbx x b) w

/-! ### Positions -/

/-- The limit of the velocity, pso.cpp 330-336. -/
def psoLimit (lo hi w : Fl K) : Fl K := if Fl.gt w hi then hi else if Fl.lt w lo then lo else w

/-- The new position and velocity, pso.cpp 339-355. -/
def psoShift (op : Fl.Ops K) (l u x w : Fl K) : Fl K × Fl K :=
  if Fl.lt (op.add x w) l then (l, .fin 0)
  else if Fl.gt (op.add x w) u then (u, .fin 0)
  else (op.add x w, w)

/-- Body of the loop, pso.cpp 328-356; the state is the position and the velocity of the particle. -/
def psoMoveAt (op : Fl.Ops K) (P : AProb K) (A : Pso K) (xw : List (Fl K) × List (Fl K)) (d : Nat) :
    Outcome (List (Fl K) × List (Fl K)) := do
  let w ← Outcome.get xw.2 d
  let lo ← Outcome.get (psoMinv op P A) d
  let hi ← Outcome.get (psoMaxv op P A) d
  let xd ← Outcome.get xw.1 d
  let l ← Outcome.get P.lb d
  let u ← Outcome.get P.ub d
  let x' ← Outcome.set xw.1 d (psoShift op l u xd (psoLimit lo hi w)).1
  let w' ← Outcome.set xw.2 d (psoShift op l u xd (psoLimit lo hi w)).2
  pure (x', w')

/-! ### The main loop -/

/-- The local variables and `m_V`, pso.cpp 152-165. -/
structure PsoVars (K : Type) where
  xs : List (List (Fl K))
  vel : List (List (Fl K))
  lbX : List (List (Fl K))
  lbfit : List (List (Fl K))
  nb : List (List Nat)
  bestX : List (Fl K)
  bestF : List (Fl K)
  improved : Bool

/-- `best_neighb` of the particle `p`, pso.cpp 236-237. -/
def psoLeader (A : Pso K) (c : PsoVars K) (p : Nat) : Outcome (List (Fl K)) :=
  if A.topology ≠ 1 ∧ A.variant ≠ 6 then psoBest c.nb c.lbX c.lbfit p else .ok c.bestX

/-- The bookkeeping after an evaluation, pso.cpp 361-372; `a <= b` on vectors is `!(b < a)`. -/
def psoKeep (A : Pso K) (c : PsoVars K) (p : Nat) (x f : List (Fl K)) : Outcome (PsoVars K) := do
  let old ← Outcome.get c.lbfit p
  if Pop.vecLt old f = false then do
    let lbfit ← Outcome.set c.lbfit p f
    let lbX ← Outcome.set c.lbX p x
    if (A.topology = 1 ∨ A.topology = 4) ∧ Pop.vecLt c.bestF f = false then
      pure { c with lbfit := lbfit, lbX := lbX, bestX := x, bestF := f, improved := true }
    else pure { c with lbfit := lbfit, lbX := lbX }
  else pure c

/-- The move of the particle `p`, pso.cpp 236-356: `best_neighb`, the position and the velocity. -/
def psoFly (v : Env K σ) (P : AProb K) (A : Pso K) (c : PsoVars K) (p : Nat) :
    Run σ (List (Fl K) × List (Fl K) × List (Fl K)) := do
  let b ← Run.lift (psoLeader A c p)
  let nbp ← Run.lift (Outcome.get c.nb p)
  let lbx ← Run.lift (Outcome.get c.lbX p)
  let x ← Run.lift (Outcome.get c.xs p)
  let w ← Run.lift (Outcome.get c.vel p)
  let w ← psoVel v P A nbp c.lbX lbx x b w
  let xw ← Run.lift ((List.range P.info.nx).foldlM (psoMoveAt v.op P A) (x, w))
  pure (b, xw)

/-- Body of the loop over the particles, pso.cpp 230-373. -/
def psoParticle (v : Env K σ) (P : AProb K) (A : Pso K) (c : PsoVars K) (p : Nat) : Run (St K σ) (PsoVars K) := do
  let m ← onRng (psoFly v P A c p)
  let xs ← Run.lift (Outcome.set c.xs p m.2.1)
  let vel ← Run.lift (Outcome.set c.vel p m.2.2)
  let f ← eval P m.2.1
  Run.lift (psoKeep A { c with xs := xs, vel := vel, bestX := m.1 } p m.2.1 f)

/-- The topology after a generation, pso.cpp 375. -/
def psoRewire (v : Env K σ) (A : Pso K) (n : Nat) (c : PsoVars K) : Run (St K σ) (PsoVars K) :=
  if A.topology = 4 ∧ c.improved = false then do
    let nb ← onRng (psoRandom v.g n A.param)
    pure { c with nb := nb }
  else pure c

/-- Body of the main loop, pso.cpp 227-433. -/
def psoGen (v : Env K σ) (P : AProb K) (A : Pso K) (n : Nat) (_ : Nat) (c : PsoVars K) : Run (St K σ) (PsoVars K × Bool) := do
  let c ← (List.range n).foldlM (psoParticle v P A) { c with improved := false }
  let c ← psoRewire v A n c
  pure (c, false)

/-- The topology and the best so far, pso.cpp 201-216, 547-567: `neighb`, `best_neighb`, `best_fit`. -/
def psoTopology (v : Env K σ) (P : AProb K) (A : Pso K) (n : Nat) : Run (St K σ) (List (List Nat) × List (Fl K) × List (Fl K)) := do
  let s ← Run.get
  if A.topology = 1 then do
    let b ← Run.lift (Pop.bestIdx v.srt v.sq P.info s.pop.f s.pop.tol)
    let x ← Run.lift (Outcome.get s.pop.x b)
    let f ← Run.lift (Outcome.get s.pop.f b)
    pure (List.replicate n (if A.variant = 6 then List.range n else []), x, f)
  else if A.topology = 3 then do
    let nb ← Run.lift (psoVon n)
    pure (nb, List.replicate P.info.nx v.op.zero, [])
  else if A.topology = 4 then do
    let nb ← onRng (psoRandom v.g n A.param)
    let b ← Run.lift (Pop.bestIdx v.srt v.sq P.info s.pop.f s.pop.tol)
    let f ← Run.lift (Outcome.get s.pop.f b)
    pure (nb, List.replicate P.info.nx v.op.zero, f)
  else pure (psoRing n A.param, List.replicate P.info.nx v.op.zero, [])

/-- Body of the last loop, pso.cpp 440. -/
def psoCopyBack (v : Env K σ) (P : AProb K) (c : PsoVars K) (_ : Unit) (i : Nat) : Run (St K σ) Unit := do
  let x ← Run.lift (Outcome.get c.lbX i)
  let f ← Run.lift (Outcome.get c.lbfit i)
  onPop (Pop.setXF v.sq P.info i x f)

/-- `pso::evolve`, pso.cpp 116-443. `V` is `m_V`; the result is the new `m_V`. -/
def psoEvolve (v : Env K σ) (P : AProb K) (A : Pso K) (fuel : Nat) (V : List (List (Fl K))) : Run (St K σ) (List (List (Fl K))) :=
  if P.info.nc ≠ 0 then Run.throw .invalidArgument
  else if P.info.nf ≠ 1 then Run.throw .invalidArgument
  else if P.info.stochastic then Run.throw .invalidArgument
  else do
    let s ← Run.get
    if s.pop.id.length = 0 then Run.throw .invalidArgument
    else do
      let V ← onRng (psoInitV v P A s.pop.id.length V)
      let t ← psoTopology v P A s.pop.id.length
      let c ← genLoop (psoGen v P A s.pop.id.length) A.gens fuel 1 ⟨s.pop.x, V, s.pop.x, s.pop.f, t.1, t.2.1, t.2.2, false⟩
      (List.range s.pop.id.length).foldlM (psoCopyBack v P c) ()
      pure c.vel

end Verif.Alg
