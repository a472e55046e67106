import Verif.Model.Pso
import Verif.Model.Nsga2

/-!
# Model of src/algorithms/nspso.cpp

The log and the screen output (nspso.cpp 163-193) are not modelled. What `m_velocity`, `m_best_fit` and `m_best_dvs` are
after an exception is not modelled.
-/

set_option autoImplicit false

namespace Verif.Alg

open Verif Prob MO

variable {K σ : Type} [Field K] [LinearOrder K]

/-- The parameters, include/pagmo/algorithms/nspso.hpp 125-133. -/
structure Nspso (K : Type) where
  gens : Nat
  omega : Fl K
  c1 : Fl K
  c2 : Fl K
  chi : Fl K
  vcoeff : Fl K
  range : Nat
  mech : String
  memory : Bool
deriving DecidableEq

/-- `nspso::nspso`, nspso.cpp 53-80. -/
def nspCtor (gens : Nat) (omega c1 c2 chi vcoeff : Fl K) (range : Nat) (mech : String) (memory : Bool) : Outcome (Nspso K) :=
  if Fl.lt omega (.fin 0) || Fl.gt omega (.fin 1) then .throws .invalidArgument
  else if Fl.le c1 (.fin 0) || Fl.le c2 (.fin 0) || Fl.le chi (.fin 0) then .throws .invalidArgument
  else if Fl.le vcoeff (.fin 0) || Fl.gt vcoeff (.fin 1) then .throws .invalidArgument
  else if range > 100 then .throws .invalidArgument
  else if mech ≠ "crowding distance" ∧ mech ≠ "niche count" ∧ mech ≠ "max min" then .throws .invalidArgument
  else .ok ⟨gens, omega, c1, c2, chi, vcoeff, range, mech, memory⟩

/-! ### The candidates for the leader -/

/-- The first `n` elements of a vector; undefined if there are fewer. nspso.cpp 199-209, 286-289, 379-381, 391-392 -/
def firstN (l : List Nat) (n : Nat) : Outcome (List Nat) := (List.range n).mapM (fun i => Outcome.get l i)

/-- With the mechanism "crowding distance", nspso.cpp 196-210. -/
def nspCrowd (v : MoEnv K σ) (t : Fnds) (fs : List (List (Fl K))) : Outcome (List Nat) := do
  let l ← sortPopulationMo v.op v.srt fs
  let f0 ← Outcome.get t.fronts 0
  let d ← firstN l f0.length
  if f0.length > 1 then pure d else firstN l 2

/-- Body of the loop, nspso.cpp 495-498. -/
def nspDistAt (v : MoEnv K σ) (x y : List (Fl K)) (sum : Fl K) (i : Nat) : Outcome (Fl K) := do
  let a ← Outcome.get x i
  let b ← Outcome.get y i
  pure (v.op.add sum (v.pw (v.op.sub a b) (.fin 2)))

/-- `euclidian_distance`, nspso.cpp 490-501. -/
def nspDist (v : MoEnv K σ) (x y : List (Fl K)) : Outcome (Fl K) := do
  let sum ← (List.range x.length).foldlM (nspDistAt v x y) v.op.zero
  pure (v.sq sum)

/-- Body of the inner loop, nspso.cpp 512-518; the state is `count[i]`. -/
def nspNear (v : MoEnv K σ) (delta : Fl K) (x : List (Fl K)) (c : Nat) (y : List (Fl K)) : Outcome Nat := do
  let d ← nspDist v x y
  pure (if Fl.lt d delta then c + 1 else c)

/-- `compute_niche_count`, nspso.cpp 503-520. -/
def nspNiches (v : MoEnv K σ) (delta : Fl K) (xs : List (List (Fl K))) : Outcome (List Nat) :=
  xs.mapM (fun x => xs.foldlM (nspNear v delta x) 0)

/-- `delta` for two objectives, nspso.cpp 225-231; `m` is the number of non-dominated individuals. -/
def nspDelta2 (v : MoEnv K σ) (nad ide : List (Fl K)) (m : Nat) : Outcome (Fl K) := do
  let n0 ← Outcome.get nad 0
  let i0 ← Outcome.get ide 0
  let n1 ← Outcome.get nad 1
  let i1 ← Outcome.get ide 1
  pure (v.op.div (v.op.add (v.op.sub n0 i0) (v.op.sub n1 i1)) (v.op.sub (.fin (v.g.ofInt (if m = 1 then 2 else m : Nat))) (.fin 1)))

/-- The sum under the square root, nspso.cpp 240-242. -/
def nspRadicand (v : MoEnv K σ) (d1 d2 d3 m : Fl K) : Fl K :=
  let o := v.op
  let t1 := o.mul (o.mul (o.mul (.fin 4) d2) d1) m
  let t2 := o.mul (o.mul (o.mul (.fin 4) d3) d1) m
  let t3 := o.mul (o.mul (o.mul (.fin 4) d2) d3) m
  let s := o.add (o.add (o.add (o.add (o.add t1 t2) t3) (v.pw d1 (.fin 2))) (v.pw d2 (.fin 2))) (v.pw d3 (.fin 2))
  let s := o.sub (o.sub (o.sub s (o.mul (o.mul (.fin 2) d2) d1)) (o.mul (o.mul (.fin 2) d3) d1)) (o.mul (o.mul (.fin 2) d2) d3)
  o.add (o.add (o.add s d1) d2) d3

/-- `delta` for three objectives, nspso.cpp 232-243. -/
def nspDelta3 (v : MoEnv K σ) (nad ide : List (Fl K)) (m : Nat) : Outcome (Fl K) := do
  let n0 ← Outcome.get nad 0
  let i0 ← Outcome.get ide 0
  let n1 ← Outcome.get nad 1
  let i1 ← Outcome.get ide 1
  let n2 ← Outcome.get nad 2
  let i2 ← Outcome.get ide 2
  let c : Fl K := .fin (v.g.ofInt m)
  let c := if Fl.lt c (.fin 2) then .fin 2 else c
  pure (v.op.div (v.sq (nspRadicand v (v.op.sub n0 i0) (v.op.sub n1 i1) (v.op.sub n2 i2) c))
    (v.op.mul (.fin 2) (v.op.sub c (.fin 1))))

/-- Body of the loop, nspso.cpp 245-247. -/
def nspVolume (v : MoEnv K σ) (nad ide : List (Fl K)) (d : Fl K) (i : Nat) : Outcome (Fl K) := do
  let n ← Outcome.get nad i
  let j ← Outcome.get ide i
  pure (v.op.mul d (v.op.sub n j))

/-- `delta` for more objectives, nspso.cpp 244-250. -/
def nspDeltaN (v : MoEnv K σ) (nad ide : List (Fl K)) (m : Nat) : Outcome (Fl K) := do
  let d ← (List.range nad.length).foldlM (nspVolume v nad ide) (.fin 1)
  pure (v.op.div (v.pw d (v.op.div (.fin 1) (.fin (v.g.ofInt nad.length)))) (.fin (v.g.ofInt m)))

/-- `delta`, nspso.cpp 223-250. -/
def nspDelta (v : MoEnv K σ) (nobj : Nat) (nad ide : List (Fl K)) (m : Nat) : Outcome (Fl K) :=
  if nobj = 2 then nspDelta2 v nad ide m
  else if nobj = 3 then nspDelta3 v nad ide m
  else nspDeltaN v nad ide m

/-- Comparator of nspso.cpp 256-259. The counts are compared as integers, their conversion to `double` is exact up to
2^53. Indices out of range do not occur. -/
def nspLessCount (c : List Nat) (a b : Nat) : Bool :=
  match c[a]?, c[b]? with
  | some x, some y => decide (x < y)
  | _, _ => false

/-- With the mechanism "niche count", nspso.cpp 213-268. -/
def nspNiche (v : MoEnv K σ) (P : AProb K) (t : Fnds) (fs xs : List (List (Fl K))) : Outcome (List Nat) := do
  let _ ← sortPopulationMo v.op v.srt fs
  let f0 ← Outcome.get t.fronts 0
  let nd ← f0.mapM (fun i => Outcome.get xs i)
  let nad ← nadir fs
  let ide ← ideal fs
  let delta ← nspDelta v P.info.nobj nad ide nd.length
  let c ← nspNiches v delta nd
  let sl ← stdSort v.srt (nspLessCount c) (List.range nd.length)
  if f0.length > 1 then sl.mapM (fun i => Outcome.get f0 i)
  else do
    let a ← Outcome.get f0 0
    let f1 ← Outcome.get t.fronts 1
    let b ← Outcome.get f1 0
    pure [a, b]

/-- Body of the loop of `minfit`, nspso.cpp 455-463. -/
def nspMinAt (op : Fl.Ops K) (a b : List (Fl K)) (m : Fl K) (i : Nat) : Outcome (Fl K) := do
  let x ← Outcome.get a i
  let y ← Outcome.get b i
  pure (if Fl.lt (op.sub x y) m then op.sub x y else m)

/-- `minfit`, nspso.cpp 448-466. -/
def nspMinfit (op : Fl.Ops K) (fs : List (List (Fl K))) (i j : Nat) : Outcome (Fl K) := do
  let a ← Outcome.get fs i
  let b ← Outcome.get fs j
  let x ← Outcome.get a 0
  let y ← Outcome.get b 0
  let f0 ← Outcome.get fs 0
  (List.range f0.length).foldlM (nspMinAt op a b) (op.sub x y)

/-- Body of the inner loop of `compute_maxmin`, nspso.cpp 475-485; the state is `maxmin[i]`. -/
def nspMaxAt (op : Fl.Ops K) (fs : List (List (Fl K))) (i : Nat) (m : Fl K) (j : Nat) : Outcome (Fl K) :=
  if i ≠ j then do
    let t ← nspMinfit op fs i j
    pure (if Fl.gt t m then t else m)
  else pure m

/-- Body of the outer loop of `compute_maxmin`, nspso.cpp 471-486. -/
def nspMaxminAt (op : Fl.Ops K) (fs : List (List (Fl K))) (i : Nat) : Outcome (Fl K) := do
  let m ← nspMinfit op fs i ((i + 1) % fs.length)
  (List.range fs.length).foldlM (nspMaxAt op fs i) m

/-- `compute_maxmin`, nspso.cpp 468-488. -/
def nspMaxmin (op : Fl.Ops K) (fs : List (List (Fl K))) : Outcome (List (Fl K)) :=
  (List.range fs.length).mapM (nspMaxminAt op fs)

/-- Comparator of nspso.cpp 275-277, 388-390. Indices out of range do not occur. -/
def nspLess (m : List (Fl K)) (a b : Nat) : Bool :=
  match m[a]?, m[b]? with
  | some x, some y => Fl.lessThanF x y
  | _, _ => false

/-- The indices sorted by `maxmin`, nspso.cpp 270-277, 383-390. -/
def nspByMaxmin (v : MoEnv K σ) (m : List (Fl K)) (n : Nat) : Outcome (List Nat) := stdSort v.srt (nspLess m) (List.range n)

/-- The number of indices kept, nspso.cpp 279-284. `sl` holds the indices of `m`. -/
def nspKept (m : List (Fl K)) (sl : List Nat) : Nat :=
  let i := 1 + ((sl.drop 1).takeWhile (fun a => Fl.lt (m.getD a .nan) (.fin 0))).length
  if i < 2 then 2 else i

/-- With the mechanism "max min", nspso.cpp 270-290. -/
def nspMm (v : MoEnv K σ) (fs : List (List (Fl K))) : Outcome (List Nat) := do
  let m ← nspMaxmin v.op fs
  let sl ← nspByMaxmin v m fs.length
  firstN sl (nspKept m sl)

/-- `best_non_dom_indices`, nspso.cpp 162, 195-290. -/
def nspLeaders (v : MoEnv K σ) (P : AProb K) (A : Nspso K) (fs xs : List (List (Fl K))) : Outcome (List Nat) := do
  let t ← fnds fs
  if A.mech = "crowding distance" then nspCrowd v t fs
  else if A.mech = "niche count" then nspNiche v P t fs xs
  else nspMm v fs

/-! ### The move -/

/-- The parameters that `nspso` has in common with `pso`: the limits of the velocities (nspso.cpp 138-144, as pso.cpp
174-179) and the first velocities (nspso.cpp 145-153, as pso.cpp 190-198) are computed from them in the same way. -/
def nspPso (A : Nspso K) : Pso K := ⟨A.gens, A.omega, A.c1, A.c2, A.vcoeff, 3, 1, 1, A.memory⟩

/-- `ext`, nspso.cpp 295-301: the last place of the list that can be drawn. The product and the quotient are computed
without rounding (the list is shorter than 2^31); a number that is no `int` is undefined. -/
def nspExt (A : Nspso K) (m : Nat) : Outcome Nat :=
  if (m * A.range + 99) / 100 > 2 ^ 31 then .ub
  else .ok (if (m * A.range + 99) / 100 - 1 < 1 then 1 else (m * A.range + 99) / 100 - 1)

/-- The index of the leader, nspso.cpp 303-309; the first argument is the fuel. -/
def nspDraw (g : Gen K σ) (L : List Nat) (ext idx : Nat) : Nat → Run σ Nat
  | 0 => Run.lift .nofuel
  | n + 1 => do
    let k ← g.drawNat 0 ext
    let q ← Run.lift (Outcome.get L k)
    if q = idx then nspDraw g L ext idx n else pure q

/-- The velocity of a component, nspso.cpp 319-320. -/
def nspVel (op : Fl.Ops K) (A : Nspso K) (r1 r2 w b x l : Fl K) : Fl K :=
  op.add (op.add (op.mul A.omega w) (op.mul (op.mul A.c1 r1) (op.sub b x))) (op.mul (op.mul A.c2 r2) (op.sub l x))

/-- The new position and velocity of a component, nspso.cpp 326-336; `w` is within the limits. -/
def nspShift (op : Fl.Ops K) (A : Nspso K) (lo hi x w : Fl K) : Fl K × Fl K :=
  if Fl.gt (op.add x (op.mul A.chi w)) hi then (hi, .fin 0)
  else if Fl.lt (op.add x (op.mul A.chi w)) lo then (lo, .fin 0)
  else (op.add x (op.mul A.chi w), w)

/-- Body of the loop, nspso.cpp 318-337; the state is `new_dvs` and `new_vel` up to here. -/
def nspMoveAt (op : Fl.Ops K) (P : AProb K) (A : Nspso K) (r1 r2 : Fl K) (w b x l : List (Fl K)) (acc : List (Fl K) × List (Fl K)) (d : Nat) :
    Outcome (List (Fl K) × List (Fl K)) := do
  let wd ← Outcome.get w d
  let bd ← Outcome.get b d
  let xd ← Outcome.get x d
  let ld ← Outcome.get l d
  let mx ← Outcome.get (psoMaxv op P (nspPso A)) d
  let mn ← Outcome.get (psoMinv op P (nspPso A)) d
  let lo ← Outcome.get P.lb d
  let hi ← Outcome.get P.ub d
  let r := nspShift op A lo hi xd (psoLimit mn mx (nspVel op A r1 r2 wd bd xd ld))
  pure (acc.1 ++ [r.1], acc.2 ++ [r.2])

/-- `m_velocity`, `m_best_fit` and `m_best_dvs`. -/
structure NspMem (K : Type) where
  vel : List (List (Fl K))
  bestF : List (List (Fl K))
  bestX : List (List (Fl K))
deriving DecidableEq

/-- The move of the particle `idx`, nspso.cpp 294-337. `xs` are the positions (`dvs`), `vel` the velocities. -/
def nspFly (v : MoEnv K σ) (P : AProb K) (A : Nspso K) (bestX : List (List (Fl K))) (L : List Nat) (fuel : Nat)
    (xs vel : List (List (Fl K))) (idx : Nat) : Run σ (List (Fl K) × List (Fl K)) := do
  let ext ← Run.lift (nspExt A L.length)
  let q ← nspDraw v.g L ext idx fuel
  let l ← Run.lift (Outcome.get bestX q)
  let r1 ← v.g.draw01
  let r2 ← v.g.draw01
  let w ← Run.lift (Outcome.get vel idx)
  let b ← Run.lift (Outcome.get bestX idx)
  let x ← Run.lift (Outcome.get xs idx)
  Run.lift ((List.range P.info.nx).foldlM (nspMoveAt v.op P A r1 r2 w b x l) ([], []))

/-- The moved particle in `dvs` and `m_velocity`, nspso.cpp 339-340 (`next_pop_dvs[idx]` is `dvs[idx]`). -/
def nspStore (xs vel : List (List (Fl K))) (idx : Nat) (m : List (Fl K) × List (Fl K)) : Outcome (List (List (Fl K)) × List (List (Fl K))) := do
  let xs ← Outcome.set xs idx m.1
  let vel ← Outcome.set vel idx m.2
  pure (xs, vel)

/-- Body of the loop over the particles with a batch evaluator, nspso.cpp 293-347; the state is `dvs` and `m_velocity`. -/
def nspOne (v : MoEnv K σ) (P : AProb K) (A : Nspso K) (bestX : List (List (Fl K))) (L : List Nat) (fuel : Nat)
    (c : List (List (Fl K)) × List (List (Fl K))) (idx : Nat) : Run (St K σ) (List (List (Fl K)) × List (List (Fl K))) := do
  let m ← onRng (nspFly v P A bestX L fuel c.1 c.2 idx)
  Run.lift (nspStore c.1 c.2 idx m)

/-- Body of the loop over the particles without a batch evaluator, nspso.cpp 293-347; the state is `dvs`, `m_velocity` and
`fit` (`next_pop_fit[idx]` is `fit[idx]`). -/
def nspEvalOne (v : MoEnv K σ) (P : AProb K) (A : Nspso K) (bestX : List (List (Fl K))) (L : List Nat) (fuel : Nat)
    (c : (List (List (Fl K)) × List (List (Fl K))) × List (List (Fl K))) (idx : Nat) :
    Run (St K σ) ((List (List (Fl K)) × List (List (Fl K))) × List (List (Fl K))) := do
  let m ← onRng (nspFly v P A bestX L fuel c.1.1 c.1.2 idx)
  let c' ← Run.lift (nspStore c.1.1 c.1.2 idx m)
  let f ← eval P m.1
  let fs ← Run.lift (Outcome.set c.2 idx f)
  pure (c', fs)

/-- All particles, nspso.cpp 292-368; the result are `dvs`, `m_velocity` and `fit`. `fit` has as many entries as there are
objectives, all of them are overwritten with the result of the batch evaluator. -/
def nspMoveAll (v : MoEnv K σ) (P : AProb K) (A : Nspso K) (bfe : Option (Batch K)) (bestX : List (List (Fl K))) (L : List Nat) (n fuel : Nat)
    (xs vel fs : List (List (Fl K))) : Run (St K σ) ((List (List (Fl K)) × List (List (Fl K))) × List (List (Fl K))) :=
  match bfe with
  | some b => do
    let c ← (List.range n).foldlM (nspOne v P A bestX L fuel) (xs, vel)
    let fs ← evalBatch P b c.1
    pure (c, fs)
  | none => (List.range n).foldlM (nspEvalOne v P A bestX L fuel) ((xs, vel), fs)

/-! ### The selection -/

/-- `best_next_pop_indices`, nspso.cpp 375-393. -/
def nspSelect (v : MoEnv K σ) (A : Nspso K) (n : Nat) (fs : List (List (Fl K))) : Outcome (List Nat) :=
  if A.mech ≠ "max min" then do
    let _ ← fnds fs
    let l ← sortPopulationMo v.op v.srt fs
    firstN l n
  else do
    let m ← nspMaxmin v.op fs
    let l ← nspByMaxmin v m fs.length
    firstN l n

/-- `m_best_dvs` and `m_best_fit` after a generation, nspso.cpp 369-400: the second half of `next_pop` is the best so far. -/
def nspBest (v : MoEnv K σ) (A : Nspso K) (n : Nat) (xs fs bestX bestF : List (List (Fl K))) : Outcome (List (List (Fl K)) × List (List (Fl K))) := do
  let oldX ← (List.range n).mapM (fun i => Outcome.get bestX i)
  let oldF ← (List.range n).mapM (fun i => Outcome.get bestF i)
  let sel ← nspSelect v A n (fs ++ oldF)
  let bx ← sel.mapM (fun i => Outcome.get (xs ++ oldX) i)
  let bf ← sel.mapM (fun i => Outcome.get (fs ++ oldF) i)
  pure (bx, bf)

/-- Body of the last loop, nspso.cpp 402-404. -/
def nspCopy (v : MoEnv K σ) (P : AProb K) (xs fs : List (List (Fl K))) (_ : Unit) (i : Nat) : Run (St K σ) Unit := do
  let x ← Run.lift (Outcome.get xs i)
  let f ← Run.lift (Outcome.get fs i)
  onPop (Pop.setXF v.sq P.info i x f)

/-- Body of the main loop, nspso.cpp 156-406. -/
def nspGen (v : MoEnv K σ) (P : AProb K) (A : Nspso K) (bfe : Option (Batch K)) (n fuel : Nat) (_ : Nat) (m : NspMem K) :
    Run (St K σ) (NspMem K × Bool) := do
  let s ← Run.get
  let L ← Run.lift (nspLeaders v P A s.pop.f s.pop.x)
  let r ← nspMoveAll v P A bfe m.bestX L n fuel s.pop.x m.vel s.pop.f
  let b ← Run.lift (nspBest v A n r.1.1 r.2 m.bestX m.bestF)
  (List.range n).foldlM (nspCopy v P r.1.1 r.2) ()
  pure (⟨r.1.2, b.2, b.1⟩, false)

/-- `m_best_fit` and `m_best_dvs` before the main loop, nspso.cpp 128-134: `m` is what the object remembers. -/
def nspRecall (A : Nspso K) (pop : Pop.State K) (m : NspMem K) : NspMem K :=
  if m.bestF.length ≠ pop.f.length ∧ A.memory = true then ⟨m.vel, pop.f, pop.x⟩
  else if A.memory = false then ⟨m.vel, pop.f, pop.x⟩
  else m

/-- `nspso::evolve`, nspso.cpp 83-408. `m` are the member variables that `evolve` changes; the result is their new value. `bfe`
is what `set_bfe` (nspso.cpp 418-421) stored. -/
def nspEvolve (v : MoEnv K σ) (P : AProb K) (A : Nspso K) (bfe : Option (Batch K)) (fuel : Nat) (m : NspMem K) : Run (St K σ) (NspMem K) := do
  let s ← Run.get
  if P.info.stochastic then Run.throw .invalidArgument
  else if P.info.nc ≠ 0 then Run.throw .invalidArgument
  else if P.info.nf < 2 then Run.throw .invalidArgument
  else if s.pop.id.length ≤ 1 then Run.throw .invalidArgument
  else if A.gens = 0 then pure m
  else do
    let m := nspRecall A s.pop m
    let V ← onRng (psoInitV v.toEnv P (nspPso A) s.pop.id.length m.vel)
    genLoop (nspGen v P A bfe s.pop.id.length fuel) A.gens fuel 1 ⟨V, m.bestF, m.bestX⟩

end Verif.Alg
