import Verif.Model.Hypervolume
import Verif.Base.Rng

/-!
# Model of the approximate hypervolume algorithms

src/utils/hv_algos/hv_bf_approx.cpp (the Bringmann-Friedrich race for the least and the greatest contributor) and
hv_bf_fpras.cpp (the randomised approximation of the hypervolume).

The mathematical functions, the conversions of counters to `double`, the exact hypervolume computation and the random
numbers are parameters. The unsigned counters of samples, operations and rounds do not wrap. History variables, not in
the code, record the points drawn and what the estimates were after each round.
-/

set_option autoImplicit false

namespace Verif.Hv

open Verif Run

/-- What the approximate algorithms are run with. -/
structure ApEnv (K σ : Type) where
  op : Fl.Ops K
  g : Gen K σ
  /-- `hypervolume(sub_front, false).compute(refpoint)` -/
  hv : List (List (Fl K)) → List (Fl K) → Outcome (Fl K)
  /-- conversion of an unsigned integer to `double` -/
  ofNat : Nat → Fl K
  /-- conversion of a `double` to `unsigned` (towards zero) -/
  trunc : Fl K → Nat
  /-- `std::log`, `std::sqrt`, `std::pow`, `std::floor` -/
  log : Fl K → Fl K
  sqrt : Fl K → Fl K
  pow : Fl K → Fl K → Fl K
  floor : Fl K → Fl K
  /-- the literals 0.5 and 0.0005 -/
  half : Fl K
  c5e4 : Fl K

/-- The parameters of `bf_approx`, include/pagmo/utils/hv_algos/hv_bf_approx.hpp 73-75. -/
structure ApPar (K : Type) where
  useExact : Bool
  trivial : Nat
  eps : Fl K
  delta : Fl K
  mult : Fl K
  alpha : Fl K
  coeff : Fl K
  gamma : Fl K

/-- `extreme_contrib_type`, include/pagmo/utils/hv_algos/hv_bf_approx.hpp 113. -/
inductive ApKind where
  | least
  | greatest
  deriving DecidableEq

/-- What the race looked like at the end of the sampling of a round, before points are erased; not in the code. -/
structure ApRec (K : Type) where
  /-- the points still in the race -/
  active : List Nat
  approx : List (Fl K)
  pdelta : List (Fl K)
  noOps : List Nat
  /-- the points drawn so far with the index of the point whose box they were drawn from -/
  draws : List (Nat × List (Fl K))
  round : Nat
  deriving DecidableEq

/-- The mutable members of `bf_approx`, include/pagmo/utils/hv_algos/hv_bf_approx.hpp 159-194, with the extreme
contributor found so far (a local variable of the code) and the history. -/
structure ApSt (K σ : Type) where
  e : σ
  noSamples : List Nat
  noSucc : List Nat
  noOps : List Nat
  active : List Nat
  boxVol : List (Fl K)
  approx : List (Fl K)
  pdelta : List (Fl K)
  boxes : List (List (Fl K))
  boxPts : List (List Nat)
  ec : Nat
  draws : List (Nat × List (Fl K))
  rounds : List (ApRec K)

section
variable {K σ : Type} [Field K] [LinearOrder K]

/-- The constructor's checks, src/utils/hv_algos/hv_bf_approx.cpp 60-66. -/
def apConstruct (op : Fl.Ops K) (par : ApPar K) : Outcome (ApPar K) :=
  if Fl.lt par.eps op.zero || Fl.gt par.eps op.one then .throws .invalidArgument
  else if Fl.lt par.delta op.zero || Fl.gt par.delta op.one then .throws .invalidArgument
  else .ok par

/-- `bf_approx::compute`, src/utils/hv_algos/hv_bf_approx.cpp 75-79. -/
def apCompute (_pts : List (List (Fl K))) (_r : List (Fl K)) : Outcome (Fl K) := .throws .invalidArgument

/-- `detail::expected_hv_operations`, src/utils/hypervolume.cpp 465-475. -/
def expectedOps (v : ApEnv K σ) (n d : Nat) : Fl K :=
  if d ≤ 3 then v.op.mul (v.op.mul (v.ofNat d) (v.ofNat n)) (v.log (v.ofNat n))
  else if d = 4 then v.op.mul (v.op.mul (v.ofNat 4) (v.ofNat n)) (v.ofNat n)
  else v.op.mul (v.op.mul v.c5e4 (v.ofNat d)) (v.pow (v.ofNat n) (v.op.mul (v.ofNat d) v.half))

/-- The inner loop of `compute_bounding_box`, src/utils/hv_algos/hv_bf_approx.cpp 183-196: the coordinate in which `q`
is not better than `p`, if there is exactly one. `flag` is the one found so far. -/
def apReductor (N : Num (Fl K)) (p q : List (Fl K)) : Option Nat → List Nat → Option Nat
  | flag, [] => flag
  | flag, i :: is =>
    if N.le (N.at p i) (N.at q i) then
      match flag with
      | some _ => none
      | none => apReductor N p q (some i) is
    else apReductor N p q flag is

/-- One reduction of the box by the point `q`, src/utils/hv_algos/hv_bf_approx.cpp 197-200. -/
def apReduce (N : Num (Fl K)) (p : List (Fl K)) (d : Nat) (z q : List (Fl K)) : List (Fl K) :=
  match apReductor N p q none (List.range d) with
  | some k => z.set k (Fl.stdMin (N.at z k) (N.at q k))
  | none => z

/-- `compute_bounding_box`, src/utils/hv_algos/hv_bf_approx.cpp 169-203. -/
def apBox (N : Num (Fl K)) (pts : List (List (Fl K))) (r p : List (Fl K)) : List (Fl K) :=
  pts.foldl (apReduce N p r.length) r

/-- `point_in_box`, src/utils/hv_algos/hv_bf_approx.cpp 212-227. -/
def apInBox (N : Num (Fl K)) (p a b : List (Fl K)) : Nat :=
  if domCmp N a p a.length = .equal then 3
  else if domCmp N a p a.length = .bDomA then 2
  else if domCmp N b p b.length = .bDomA then 1
  else 0

/-- The loop over `idx2`, src/utils/hv_algos/hv_bf_approx.cpp 393-414: `.error idx` is the `return idx` of the least
contributor, otherwise the points that overlap the box. -/
def apOverlap (N : Num (Fl K)) (kind : ApKind) (pts : List (List (Fl K))) (idx : Nat) (p z : List (Fl K)) :
    List Nat → List Nat → Except Nat (List Nat)
  | acc, [] => .ok acc
  | acc, j :: js =>
    if j = idx then apOverlap N kind pts idx p z acc js
    else
      let o := apInBox N (pts.getD j []) p z
      if o = 1 then apOverlap N kind pts idx p z (acc ++ [j]) js
      else if kind = .least ∧ (o = 2 ∨ o = 3) then .error idx
      else apOverlap N kind pts idx p z acc js

/-- What the initial computation finds: the boxes, their volumes, the points overlapping them, the largest volume. -/
structure ApPrep (K : Type) where
  boxes : List (List (Fl K))
  vols : List (Fl K)
  over : List (List Nat)
  rdelta : Fl K

/-- One step of the initial computation, src/utils/hv_algos/hv_bf_approx.cpp 388-416. -/
def apPrepStep (v : ApEnv K σ) (kind : ApKind) (pts : List (List (Fl K))) (r : List (Fl K)) (s : ApPrep K) (idx : Nat) :
    Except Nat (ApPrep K) :=
  let N := Num.ofFl v.op 0
  let p := pts.getD idx []
  let z := apBox N pts r p
  let vol := volumeBetweenV N p z
  match apOverlap N kind pts idx p z [] (List.range pts.length) with
  | .error i => .error i
  | .ok bp => .ok ⟨s.boxes ++ [z], s.vols ++ [vol], s.over ++ [bp], Fl.stdMax s.rdelta vol⟩

/-- The initial computation, src/utils/hv_algos/hv_bf_approx.cpp 384-416. -/
def apPrepare (v : ApEnv K σ) (kind : ApKind) (pts : List (List (Fl K))) (r : List (Fl K)) : Except Nat (ApPrep K) :=
  (List.range pts.length).foldlM (apPrepStep v kind pts r) ⟨[], [], [], v.op.zero⟩

/-- A random number from `[a, b]`, src/utils/hv_algos/hv_bf_approx.cpp 296-299. -/
def apDraw (v : ApEnv K σ) (a b : Fl K) : Run (ApSt K σ) (Fl K) := fun s =>
  ((v.g.drawReal v.op a b s.e).1, { s with e := (v.g.drawReal v.op a b s.e).2 })

/-- Does `q` dominate the random point, src/utils/hv_algos/hv_bf_approx.cpp 306-316. -/
def apDominates (N : Num (Fl K)) (q x : List (Fl K)) : Bool :=
  (List.range q.length).all (fun i => !N.lt (N.at x i) (N.at q i))

/-- The loop over the points overlapping the box, src/utils/hv_algos/hv_bf_approx.cpp 301-322: is the sample a success,
and the number of operations after it. -/
def apCheck (N : Num (Fl K)) (pts : List (List (Fl K))) (x : List (Fl K)) : Nat → List Nat → Bool × Nat
  | ops, [] => (true, ops)
  | ops, j :: js =>
    let q := pts.getD j []
    let ops := ops + (q.length + 1)
    if apDominates N q x then (false, ops) else apCheck N pts x ops js

/-- What is counted after a sample, src/utils/hv_algos/hv_bf_approx.cpp 278-281, 310. -/
def apCount (N : Num (Fl K)) (pts : List (List (Fl K))) (idx : Nat) (bp : List Nat) (x : List (Fl K))
    (s : ApSt K σ) : ApSt K σ :=
  let c := apCheck N pts x (s.noOps.getD idx 0) bp
  { s with
    noSamples := s.noSamples.set idx (s.noSamples.getD idx 0 + 1)
    noSucc := if c.1 then s.noSucc.set idx (s.noSucc.getD idx 0 + 1) else s.noSucc
    noOps := s.noOps.set idx c.2
    draws := s.draws ++ [(idx, x)] }

/-- `sample_successful`, src/utils/hv_algos/hv_bf_approx.cpp 290-323, with the counting of its caller (277-282). -/
def apSample (v : ApEnv K σ) (pts : List (List (Fl K))) (idx : Nat) : Run (ApSt K σ) Unit := do
  let s ← Run.get
  let p ← Run.lift (Outcome.get pts idx)
  let z ← Run.lift (Outcome.get s.boxes idx)
  let bp ← Run.lift (Outcome.get s.boxPts idx)
  let x ← (List.range p.length).foldlM (fun (x : List (Fl K)) i => do
    let a ← Run.lift (Outcome.get p i)
    let b ← Run.lift (Outcome.get z i)
    let u ← apDraw v a b
    pure (x ++ [u])) []
  Run.modify (apCount (Num.ofFl v.op 0) pts idx bp x)

/-- The sampling loop, src/utils/hv_algos/hv_bf_approx.cpp 277-282. -/
def apDrawLoop (v : ApEnv K σ) (pts : List (List (Fl K))) (idx : Nat) (req : Fl K) : Nat → Run (ApSt K σ) Unit
  | 0 => Run.lift .nofuel
  | k + 1 => do
    let s ← Run.get
    let m ← Run.lift (Outcome.get s.noSamples idx)
    if Fl.lt (v.ofNat m) req then do
      apSample v pts idx
      apDrawLoop v pts idx req k
    else pure ()

/-- `0.5 * ((1. + m_gamma) * std::log(round) + log_factor)` -/
def apFactor (v : ApEnv K σ) (par : ApPar K) (round : Nat) (logf : Fl K) : Fl K :=
  v.op.mul v.half (v.op.add (v.op.mul (v.op.add v.op.one par.gamma) (v.log (v.ofNat round))) logf)

/-- `compute_point_delta`, src/utils/hv_algos/hv_bf_approx.cpp 151-155, for `m` samples. -/
def apPointDelta (v : ApEnv K σ) (par : ApPar K) (round m : Nat) (logf : Fl K) : Fl K :=
  v.sqrt (v.op.div (apFactor v par round logf) (v.ofNat m))

/-- `required_no_samples`, src/utils/hv_algos/hv_bf_approx.cpp 274-275. -/
def apRequired (v : ApEnv K σ) (par : ApPar K) (round : Nat) (vol delta logf : Fl K) : Fl K :=
  let t := v.op.div vol delta
  v.op.mul (v.op.mul (apFactor v par round logf) t) t

/-- The estimate and its half width after the sampling, src/utils/hv_algos/hv_bf_approx.cpp 284-286. -/
def apEstimate (v : ApEnv K σ) (par : ApPar K) (round idx : Nat) (logf : Fl K) (s : ApSt K σ) : ApSt K σ :=
  let vol := s.boxVol.getD idx .nan
  let m := s.noSamples.getD idx 0
  { s with
    approx := s.approx.set idx (v.op.mul (v.op.div (v.ofNat (s.noSucc.getD idx 0)) (v.ofNat m)) vol)
    pdelta := s.pdelta.set idx (v.op.mul (apPointDelta v par round m logf) vol) }

/-- The points of the sub-front, src/utils/hv_algos/hv_bf_approx.cpp 252-258. -/
def apSubFront (N : Num (Fl K)) (pts : List (List (Fl K))) (p : List (Fl K)) (d : Nat) (bp : List Nat) :
    List (List (Fl K)) :=
  bp.map (fun j => (List.range d).map (fun i => Fl.stdMax (N.at p i) (N.at (pts.getD j []) i)))

/-- The exact contribution, src/utils/hv_algos/hv_bf_approx.cpp 243-265. -/
def apExactVol (v : ApEnv K σ) (pts : List (List (Fl K))) (p z : List (Fl K)) (vol : Fl K) (d : Nat) (bp : List Nat) :
    Outcome (Fl K) :=
  if bp.length = 0 then .ok vol
  else do
    let h ← v.hv (apSubFront (Num.ofFl v.op 0) pts p d bp) z
    .ok (v.op.sub vol h)

/-- `sampling_round`, src/utils/hv_algos/hv_bf_approx.cpp 230-287. -/
def apRound (v : ApEnv K σ) (par : ApPar K) (pts : List (List (Fl K))) (logf : Fl K) (fuel : Nat) (delta : Fl K)
    (round idx : Nat) : Run (ApSt K σ) Unit := do
  let s ← Run.get
  let no ← Run.lift (Outcome.get s.noOps idx)
  let bp ← Run.lift (Outcome.get s.boxPts idx)
  let p ← Run.lift (Outcome.get pts idx)
  let z ← Run.lift (Outcome.get s.boxes idx)
  let vol ← Run.lift (Outcome.get s.boxVol idx)
  let d := (pts.headD []).length
  if par.useExact = true ∧ no = 0 then pure ()
  else if par.useExact = true ∧ (bp.length ≤ par.trivial ∨ Fl.ge (v.ofNat no) (expectedOps v bp.length d) = true) then do
    let a ← Run.lift (apExactVol v pts p z vol d bp)
    Run.modify (fun s => { s with
      approx := s.approx.set idx a, pdelta := s.pdelta.set idx v.op.zero, noOps := s.noOps.set idx 0 })
  else do
    apDrawLoop v pts idx (apRequired v par round vol delta logf) fuel
    Run.modify (apEstimate v par round idx logf)

/-- `cmp_func`, src/utils/hv_algos/hv_bf_approx.cpp 94, 111. -/
def apBetter (kind : ApKind) (a b : Fl K) : Bool :=
  match kind with
  | .least => Fl.lt a b
  | .greatest => Fl.gt a b

/-- `lc_erase_condition`, `gc_erase_condition`, src/utils/hv_algos/hv_bf_approx.cpp 489-499: `a`, `da` of the point,
`b`, `db` of the extreme contributor. -/
def apErase (op : Fl.Ops K) (kind : ApKind) (a da b db : Fl K) : Bool :=
  match kind with
  | .least => Fl.gt (op.sub a da) (op.add b db)
  | .greatest => Fl.lt (op.add a da) (op.sub b db)

/-- `lc_end_condition`, `gc_end_condition`, src/utils/hv_algos/hv_bf_approx.cpp 477-487. -/
def apEnd (op : Fl.Ops K) (kind : ApKind) (a da b db : Fl K) : Fl K :=
  match kind with
  | .least => op.div (op.add b db) (op.sub a da)
  | .greatest => op.div (op.add a da) (op.sub b db)

/-- The new extreme contributor, src/utils/hv_algos/hv_bf_approx.cpp 434-440. -/
def apPick (kind : ApKind) (s : ApSt K σ) : Nat :=
  s.active.foldl (fun ec i => if apBetter kind (s.approx.getD i .nan) (s.approx.getD ec .nan) then i else ec) s.ec

/-- Is point `i` erased, src/utils/hv_algos/hv_bf_approx.cpp 445-452. -/
def apDrop (op : Fl.Ops K) (kind : ApKind) (s : ApSt K σ) (ec i : Nat) : Bool :=
  decide (i ≠ ec) && apErase op kind (s.approx.getD i .nan) (s.pdelta.getD i .nan) (s.approx.getD ec .nan)
    (s.pdelta.getD ec .nan)

/-- The end of a round, src/utils/hv_algos/hv_bf_approx.cpp 434-452, with the record of it. -/
def apSettle (op : Fl.Ops K) (kind : ApKind) (round : Nat) (s : ApSt K σ) : ApSt K σ :=
  let ec := apPick kind s
  { s with
    ec := ec
    active := s.active.filter (fun i => !apDrop op kind s ec i)
    rounds := s.rounds ++ [⟨s.active, s.approx, s.pdelta, s.noOps, s.draws, round⟩] }

/-- The termination condition, src/utils/hv_algos/hv_bf_approx.cpp 454-471. -/
def apStop (op : Fl.Ops K) (par : ApPar K) (kind : ApKind) (s : ApSt K σ) : Bool :=
  if s.active.length ≤ 1 then true
  else s.active.all (fun i =>
    if i = s.ec then true
    else
      let q := apEnd op kind (s.approx.getD i .nan) (s.pdelta.getD i .nan) (s.approx.getD s.ec .nan)
        (s.pdelta.getD s.ec .nan)
      !(Fl.le q op.zero || Fl.gt q (op.add op.one par.eps)))

/-- The main loop, src/utils/hv_algos/hv_bf_approx.cpp 421-472. -/
def apRace (v : ApEnv K σ) (par : ApPar K) (kind : ApKind) (pts : List (List (Fl K))) (logf : Fl K) (fuelS : Nat) :
    Nat → Fl K → Nat → Run (ApSt K σ) Nat
  | 0, _, _ => Run.lift .nofuel
  | k + 1, rd0, round0 => do
    let rd := v.op.mul rd0 par.mult
    let round := round0 + 1
    let s ← Run.get
    s.active.foldlM (fun (_ : Unit) i => apRound v par pts logf fuelS rd round i) ()
    apRound v par pts logf fuelS (v.op.mul par.alpha rd) round s.ec
    Run.modify (apSettle v.op kind round)
    let t ← Run.get
    if apStop v.op par kind t then pure t.ec else apRace v par kind pts logf fuelS k rd round

/-- `log_factor`, src/utils/hv_algos/hv_bf_approx.cpp 366. -/
def apLogFactor (v : ApEnv K σ) (par : ApPar K) (n : Nat) : Fl K :=
  v.log (v.op.div (v.op.mul (v.op.mul (v.ofNat 2) (v.ofNat n)) (v.op.add v.op.one par.gamma))
    (v.op.mul par.delta par.gamma))

/-- The members before the main loop, src/utils/hv_algos/hv_bf_approx.cpp 355-363, 379-382. -/
def apInit (n : Nat) (zero : Fl K) (w : ApPrep K) (e : σ) : ApSt K σ where
  e := e
  noSamples := List.replicate n 0
  noSucc := List.replicate n 0
  noOps := List.replicate n 1
  active := List.range n
  boxVol := w.vols
  approx := List.replicate n zero
  pdelta := List.replicate n zero
  boxes := w.boxes
  boxPts := w.over
  ec := 0
  draws := []
  rounds := []

/-- `approx_extreme_contributor`, src/utils/hv_algos/hv_bf_approx.cpp 349-475, so `least_contributor` (91-95) and
`greatest_contributor` (107-112). `fuel` bounds the rounds, `fuelS` the samples of a point in a round. What the call
leaves in the members is not modelled beyond the state of the engine and of the race. -/
def apExtreme (v : ApEnv K σ) (par : ApPar K) (kind : ApKind) (pts : List (List (Fl K))) (r : List (Fl K))
    (fuel fuelS : Nat) : Run (ApSt K σ) Nat := fun s =>
  if dimOk r.length pts r then
    match apPrepare v kind pts r with
    | .error i => (.ok i, { s with draws := [], rounds := [] })
    | .ok w => apRace v par kind pts (apLogFactor v par pts.length) fuelS fuel (v.op.mul w.rdelta par.coeff) 0
        (apInit pts.length v.op.zero w s.e)
  else (.ub, s)

/-! ## hv_bf_fpras.cpp -/

/-- The constructor of `bf_fpras`, src/utils/hv_algos/hv_bf_fpras.cpp 54-62. -/
def fpConstruct (op : Fl.Ops K) (eps delta : Fl K) : Outcome (Fl K × Fl K) :=
  if Fl.le eps op.zero || Fl.gt eps op.one then .throws .invalidArgument
  else if Fl.le delta op.zero || Fl.gt delta op.one then .throws .invalidArgument
  else .ok (eps, delta)

/-- `exclusive`, src/utils/hv_algos/hv_bf_fpras.cpp 152-155. -/
def fpExclusive (_i : Nat) (_pts : List (List (Fl K))) (_r : List (Fl K)) : Outcome (Fl K) := .throws .invalidArgument

/-- `least_contributor`, `greatest_contributor`, src/utils/hv_algos/hv_bf_fpras.cpp 163-176. -/
def fpContributor (_pts : List (List (Fl K))) (_r : List (Fl K)) : Outcome Nat := .throws .invalidArgument

/-- `contributions`, src/utils/hv_algos/hv_bf_fpras.cpp 184-187. -/
def fpContributions (_pts : List (List (Fl K))) (_r : List (Fl K)) : Outcome (List (Fl K)) := .throws .invalidArgument

/-- A round: the random volume, the box chosen, the point drawn from it, the indices of the points tried; not in the
code. -/
structure FpRound (K : Type) where
  u : Fl K
  box : Nat
  x : List (Fl K)
  tried : List Nat
  deriving DecidableEq

/-- `T`, src/utils/hv_algos/hv_bf_fpras.cpp 95. -/
def fpTrials (v : ApEnv K σ) (eps delta : Fl K) (n : Nat) : Fl K :=
  v.floor (v.op.div (v.op.div (v.op.mul (v.op.div (v.op.mul (v.ofNat 12) (v.log (v.op.div v.op.one delta)))
    (v.log (v.ofNat 2))) (v.ofNat n)) eps) eps)

/-- The partial sums of the volumes of the boxes, src/utils/hv_algos/hv_bf_fpras.cpp 109-112. -/
def fpSums (op : Fl.Ops K) (r : List (Fl K)) (pts : List (List (Fl K))) : List (Fl K) × Fl K :=
  pts.foldl (fun s p => let t := op.add s.2 (volumeBetweenV (Num.ofFl op 0) p r); (s.1 ++ [t], t)) ([], op.zero)

/-- `std::lower_bound(sums.begin(), sums.end(), r) - sums.begin()`, src/utils/hv_algos/hv_bf_fpras.cpp 127-128: the
first sum that is not less than `r`. -/
def fpFind (sums : List (Fl K)) (r : Fl K) : Nat := sums.findIdx (fun a => !Fl.lt a r)

/-- The random point, src/utils/hv_algos/hv_bf_fpras.cpp 131-133. -/
def fpPoint (v : ApEnv K σ) (p r : List (Fl K)) : Run σ (List (Fl K)) :=
  (List.range r.length).foldlM (fun (x : List (Fl K)) i => do
    let a ← Run.lift (Outcome.get p i)
    let b ← Run.lift (Outcome.get r i)
    let u ← v.g.draw01
    pure (x ++ [v.op.add a (v.op.mul u (v.op.sub b a))])) []

/-- The inner loop, src/utils/hv_algos/hv_bf_fpras.cpp 136-142: `ms` is `M_sum`. The result tells whether the total
number of samples was reached (the `return`), `M_sum` and the indices tried. -/
def fpTry (v : ApEnv K σ) (pts : List (List (Fl K))) (x : List (Fl K)) (T : Fl K) :
    Nat → Nat → List Nat → Run σ (Bool × Nat × List Nat)
  | 0, _, _ => Run.lift .nofuel
  | k + 1, ms, js =>
    if Fl.ge (v.ofNat ms) T then pure (true, ms, js)
    else do
      let u ← v.g.draw01
      let j := v.trunc (v.op.mul (v.ofNat pts.length) u)
      let q ← Run.lift (Outcome.get pts j)
      if domCmp (Num.ofFl v.op 0) x q x.length = .bDomA then pure (false, ms + 1, js ++ [j])
      else fpTry v pts x T k (ms + 1) (js ++ [j])

/-- The outer loop, src/utils/hv_algos/hv_bf_fpras.cpp 120-144: `hist` are the rounds completed, so `M` is its
length. The result comes with the rounds completed and the one that was not. -/
def fpLoop (v : ApEnv K σ) (pts : List (List (Fl K))) (r : List (Fl K)) (sums : List (Fl K)) (V T : Fl K)
    (fuelT : Nat) : Nat → Nat → List (FpRound K) → Run σ (Fl K × List (FpRound K) × FpRound K)
  | 0, _, _ => Run.lift .nofuel
  | k + 1, ms, hist => do
    let u ← v.g.drawReal v.op v.op.zero V
    let i := fpFind sums u
    let p ← Run.lift (Outcome.get pts i)
    let x ← fpPoint v p r
    let t ← fpTry v pts x T fuelT ms []
    if t.1 then
      pure (v.op.div (v.op.mul T V) (v.op.mul (v.ofNat pts.length) (v.ofNat hist.length)), hist,
        ⟨u, i, x, t.2.2⟩)
    else fpLoop v pts r sums V T fuelT k t.2.1 (hist ++ [⟨u, i, x, t.2.2⟩])

/-- `bf_fpras::compute`, src/utils/hv_algos/hv_bf_fpras.cpp 90-145. The counters `M` and `M_sum` are doubles in the
code, exact below `2^53`. The value comes with the rounds. -/
def fpCompute (v : ApEnv K σ) (eps delta : Fl K) (pts : List (List (Fl K))) (r : List (Fl K)) (fuel : Nat) :
    Run σ (Fl K × List (FpRound K) × FpRound K) := fun e =>
  if dimOk r.length pts r then
    let s := fpSums v.op r pts
    fpLoop v pts r s.1 s.2 (fpTrials v eps delta pts.length) fuel fuel 0 [] e
  else (.ub, e)

end

end Verif.Hv
