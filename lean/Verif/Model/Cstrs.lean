import Verif.Model.Algo

/-!
# Model of src/algorithms/cstrs_self_adaptive.cpp

The penalized problem, the choice of the reference individuals and `evolve`. The inner algorithm is any code that calls
the fitness function of the penalized problem and returns a population.
-/

set_option autoImplicit false

namespace Verif.Alg

open Verif Prob

variable {K σ : Type} [Field K] [LinearOrder K]

/-- The violation of constraint `j`, `std::max(0., std::abs(fit[j + 1]) - c_tol[j])` for equalities and
`std::max(0., fit[j + 1] - c_tol[j])` for inequalities: cstrs_self_adaptive.cpp 347, 350, 370, 375. -/
def caViol (op : Fl.Ops K) (nec : Nat) (tol fit : List (Fl K)) (j : Nat) : Outcome (Fl K) := do
  let c ← Outcome.get fit (j + 1)
  let t ← Outcome.get tol j
  pure (Fl.stdMax (.fin 0) (op.sub (if j < nec then Fl.abs c else c) t))

/-- One step of the loops over the constraints in `compute_c_max`, cstrs_self_adaptive.cpp 346-351. -/
def caCMaxCell (op : Fl.Ops K) (nec : Nat) (tol fit : List (Fl K)) (m : List (Fl K)) (j : Nat) : Outcome (List (Fl K)) := do
  let v ← caViol op nec tol fit j
  let c ← Outcome.get m j
  Outcome.set m j (Fl.stdMax c v)

/-- One individual in `compute_c_max`, cstrs_self_adaptive.cpp 341-352. The loops over equalities (`j < nec`) and
inequalities (`nec ≤ j < nc`) are one loop here. -/
def caCMaxRow (op : Fl.Ops K) (nec nc : Nat) (tol : List (Fl K)) (m fit : List (Fl K)) : Outcome (List (Fl K)) :=
  (List.range nc).foldlM (caCMaxCell op nec tol fit) m

/-- `penalized_udp::compute_c_max`, cstrs_self_adaptive.cpp 329-353. -/
def caCMax (op : Fl.Ops K) (nec nc : Nat) (tol : List (Fl K)) (fs : List (List (Fl K))) : Outcome (List (Fl K)) :=
  fs.foldlM (caCMaxRow op nec nc tol) (List.replicate nc (.fin 0))

/-- One step of the loops in `compute_infeasibility`, cstrs_self_adaptive.cpp 368-377. -/
def caInfeasCell (op : Fl.Ops K) (nec : Nat) (tol cMax fit : List (Fl K)) (r : Fl K) (j : Nat) : Outcome (Fl K) := do
  let c ← Outcome.get cMax j
  if Fl.gt c (.fin 0) then do
    let v ← caViol op nec tol fit j
    pure (op.add r (op.div v c))
  else pure r

/-- `penalized_udp::compute_infeasibility`, cstrs_self_adaptive.cpp 357-380; one loop over all constraints. -/
def caInfeas (op : Fl.Ops K) (nec nc : Nat) (tol cMax fit : List (Fl K)) : Outcome (Fl K) := do
  let r ← (List.range nc).foldlM (caInfeasCell op nec tol cMax fit) (.fin 0)
  pure (op.div r (.fin (nc : K)))

/-- The data members of `penalized_udp` (include/pagmo/algorithms/cstrs_self_adaptive.hpp 118-135), apart from the pointer to
the population and the cache. -/
structure Penal (K : Type) where
  apply1 : Bool
  gamma : Fl K
  cMax : List (Fl K)
  fDown : List (Fl K)
  fUp : List (Fl K)
  fRound : List (Fl K)
  iDown : Fl K
  iUp : Fl K
  iRound : Fl K
  nFeas : Nat
  deriving DecidableEq

/-- `m_pop_ptr->get_f()[i][0]` -/
def caObj (fs : List (List (Fl K))) (i : Nat) : Outcome (Fl K) := do
  let f ← Outcome.get fs i
  Outcome.get f 0

/-- A loop that goes through indices and keeps the one that is `better`. -/
def caPickStep (better : Nat → Nat → Outcome Bool) (best cur : Nat) : Outcome Nat := do
  let b ← better cur best
  pure (if b then cur else best)

/-- the whole loop -/
def caPick (better : Nat → Nat → Outcome Bool) (best : Nat) (l : List Nat) : Outcome Nat := l.foldlM (caPickStep better) best

/-- The comparison of 4a, cstrs_self_adaptive.cpp 184: a lower objective. -/
def caLower (fs : List (List (Fl K))) (cur best : Nat) : Outcome Bool := do
  let a ← caObj fs cur
  let b ← caObj fs best
  pure (Fl.lt a b)

/-- The comparison of 6, cstrs_self_adaptive.cpp 275: a higher objective. -/
def caHigher (fs : List (List (Fl K))) (cur best : Nat) : Outcome Bool := do
  let a ← caObj fs cur
  let b ← caObj fs best
  pure (Fl.gt a b)

/-- The comparisons of 4b, else branch (cstrs_self_adaptive.cpp 226-234) and of 5b (257-265): a greater infeasibility, or
the same and a higher objective. (226-234 has `f[hat_up] < f[current]`, 259 has `f[i] > f[hat_up]`, which is the same.) -/
def caWorse (fs : List (List (Fl K))) (inf : List (Fl K)) (cur best : Nat) : Outcome Bool := do
  let ic ← Outcome.get inf cur
  let ib ← Outcome.get inf best
  if Fl.ge ic ib then
    if Fl.eq ic ib then caHigher fs cur best else pure true
  else pure false

/-- The comparison of 5a, cstrs_self_adaptive.cpp 244-252: a lower infeasibility, or the same and a lower objective. -/
def caNearer (fs : List (List (Fl K))) (inf : List (Fl K)) (cur best : Nat) : Outcome Bool := do
  let ic ← Outcome.get inf cur
  let ib ← Outcome.get inf best
  if Fl.le ic ib then
    if Fl.eq ic ib then caLower fs cur best else pure true
  else pure false

/-- The comparison of 4b, first branch, cstrs_self_adaptive.cpp 205-214: among those with an objective below `fd`, a greater
infeasibility, or the same and a lower objective. -/
def caBelow (fs : List (List (Fl K))) (inf : List (Fl K)) (fd : Fl K) (cur best : Nat) : Outcome Bool := do
  let a ← caObj fs cur
  if Fl.lt a fd then do
    let ic ← Outcome.get inf cur
    let ib ← Outcome.get inf best
    if Fl.ge ic ib then
      if Fl.eq ic ib then caLower fs cur best else pure true
    else pure false
  else pure false

/-- The search of 4b, cstrs_self_adaptive.cpp 193-200: the first index with an objective below `fd`. -/
def caFirst (fs : List (List (Fl K))) (fd : Fl K) : List Nat → Outcome (Option Nat)
  | [] => .ok none
  | i :: l => do
    let a ← caObj fs i
    if Fl.lt a fd then pure (some i) else caFirst fs fd l

/-- 4b, cstrs_self_adaptive.cpp 190-238: the index of `hat_up` and whether penalty 1 is applied. -/
def caHatUp (fs : List (List (Fl K))) (inf : List (Fl K)) (fd : Fl K) (infIdx : List Nat) : Outcome (Nat × Bool) := do
  let o ← caFirst fs fd infIdx
  match o with
  | some i => do
    let u ← caPick (caBelow fs inf fd) i infIdx
    pure (u, true)
  | none => do
    let i ← Outcome.get infIdx 0
    let u ← caPick (caWorse fs inf) i (infIdx.drop 1)
    pure (u, false)

/-- 4 and 5, cstrs_self_adaptive.cpp 177-269: the indices of `hat_down` and `hat_up` and whether penalty 1 is applied. -/
def caHats (fs : List (List (Fl K))) (inf : List (Fl K)) (n : Nat) (feasIdx infIdx : List Nat) : Outcome (Nat × Nat × Bool) :=
  if feasIdx.length > 0 then do
    let i ← Outcome.get feasIdx 0
    let d ← caPick (caLower fs) i (feasIdx.drop 1)
    let fd ← caObj fs d
    let r ← caHatUp fs inf fd infIdx
    pure (d, r.1, r.2)
  else do
    let d ← caPick (caNearer fs inf) 0 (List.range' 1 (n - 1))
    let u ← caPick (caWorse fs inf) 0 (List.range' 1 (n - 1))
    pure (d, u, true)

/-- The scaling factor, cstrs_self_adaptive.cpp 290-299. -/
def caGamma (op : Fl.Ops K) (fd fu fr : Fl K) : Fl K :=
  if Fl.eq fu fr then .fin 0
  else if Fl.le fu fd then op.div (op.sub fr fd) fd
  else op.div (op.sub fr fu) fu

/-- 4 to 6 and the rest, cstrs_self_adaptive.cpp 177-299. -/
def caPenal (op : Fl.Ops K) (fs : List (List (Fl K))) (cMax inf : List (Fl K)) (n : Nat) (feasIdx infIdx : List Nat) :
    Outcome (Penal K) := do
  let h ← caHats fs inf n feasIdx infIdx
  let r ← caPick (caHigher fs) 0 (List.range' 1 (n - 1))
  let fRound ← Outcome.get fs r
  let fDown ← Outcome.get fs h.1
  let fUp ← Outcome.get fs h.2.1
  let iRound ← Outcome.get inf r
  let iDown ← Outcome.get inf h.1
  let iUp ← Outcome.get inf h.2.1
  let a ← Outcome.get fUp 0
  let b ← Outcome.get fDown 0
  let c ← Outcome.get fRound 0
  pure ⟨h.2.2, caGamma op b a c, cMax, fDown, fUp, fRound, iDown, iUp, iRound, feasIdx.length⟩

/-- `penalized_udp::update`, cstrs_self_adaptive.cpp 132-300, without the cache; `fs` are the objective vectors of the
population. -/
def caUpdate (op : Fl.Ops K) (nec nc : Nat) (tol : List (Fl K)) (fs : List (List (Fl K))) : Outcome (Penal K) := do
  let cMax ← caCMax op nec nc tol fs
  let inf ← fs.mapM (caInfeas op nec nc tol cMax)
  let isInf := fun i => Fl.gt (inf.getD i .nan) (.fin 0)
  let feasIdx := (List.range fs.length).filter (fun i => !isInf i)
  let infIdx := (List.range fs.length).filter isInf
  if feasIdx.length = fs.length then do
    let f ← Outcome.get fs 0
    pure ⟨false, .fin 0, cMax, f, f, f, .fin 0, .fin 0, .fin 0, feasIdx.length⟩
  else caPenal op fs cMax inf fs.length feasIdx infIdx

/-- `std::unordered_map` from decision vectors to fitness vectors; keys are compared by `equal_to_vf` (all NaNs are equal),
include/pagmo/detail/custom_comparisons.hpp 104-115. It is assumed that equal keys have equal hashes. -/
abbrev Cache (K : Type) := List (Fl K) → Option (List (Fl K))

/-- `m_fitness_map[x] = f` -/
def Cache.put (m : Cache K) (x f : List (Fl K)) : Cache K := fun y => if y = x then some f else m y

/-- The cache after `update`, cstrs_self_adaptive.cpp 137-140. -/
def caCache (xs fs : List (List (Fl K))) : Cache K := (xs.zip fs).foldl (fun m p => m.put p.1 p.2) (fun _ => none)

/-- The scaled infeasibility, cstrs_self_adaptive.cpp 108-114. -/
def caTilde (op : Fl.Ops K) (pn : Penal K) (i : Fl K) : Fl K :=
  if Fl.eq pn.iUp pn.iDown then i else op.div (op.sub i pn.iDown) (op.sub pn.iUp pn.iDown)

/-- The first penalty, cstrs_self_adaptive.cpp 117-119. -/
def caPen1 (op : Fl.Ops K) (pn : Penal K) (t f0 : Fl K) : Outcome (Fl K) :=
  if pn.apply1 then do
    let b ← Outcome.get pn.fDown 0
    let a ← Outcome.get pn.fUp 0
    pure (op.add f0 (op.mul t (op.sub b a)))
  else pure f0

/-- The second penalty, cstrs_self_adaptive.cpp 122; `ex` is `std::exp`. -/
def caPen2 (op : Fl.Ops K) (ex : Fl K → Fl K) (pn : Penal K) (t f0 : Fl K) : Fl K :=
  op.add f0 (op.mul (op.mul pn.gamma (Fl.abs f0))
    (op.div (op.sub (ex (op.mul (.fin 2) t)) (.fin 1)) (op.sub (ex (.fin 2)) (.fin 1))))

/-- The penalized objective of a point with fitness vector `fit`, cstrs_self_adaptive.cpp 98-99 and 106-124. -/
def caValue (op : Fl.Ops K) (ex : Fl K → Fl K) (nec nc : Nat) (tol : List (Fl K)) (pn : Penal K) (fit : List (Fl K)) :
    Outcome (Fl K) := do
  let f0 ← Outcome.get fit 0
  let i ← caInfeas op nec nc tol pn.cMax fit
  if Fl.gt i (.fin 0) then do
    let f1 ← caPen1 op pn (caTilde op pn i) f0
    pure (caPen2 op ex pn (caTilde op pn i) f1)
  else pure f0

/-- The state of a running `cstrs_self_adaptive::evolve`: the reference population, engine and calls of the user's fitness
function, the penalized problem with its cache, and `new_pop`. -/
structure CaSt (K σ : Type) where
  ref : St K σ
  pen : Penal K
  map : Cache K
  inn : Pop.State K

/-- Work on the reference population. -/
def onRef {α : Type} (m : Run (St K σ) α) : Run (CaSt K σ) α := fun s => ((m s.ref).1, { s with ref := (m s.ref).2 })

/-- Work on `new_pop`. -/
def onInn {α : Type} (m : Run (Pop.State K) α) : Run (CaSt K σ) α := fun s => ((m s.inn).1, { s with inn := (m s.inn).2 })

/-- What `cstrs_self_adaptive` is run with: as other algorithms, and `std::exp`. -/
structure CaEnv (K σ : Type) extends Env K σ where
  ex : Fl K → Fl K

/-- Lines 95-105 of cstrs_self_adaptive.cpp: the fitness vector, from the cache or computed and put there. -/
def caLookup (P : AProb K) (x : List (Fl K)) : Run (CaSt K σ) (List (Fl K)) := do
  let s ← Run.get
  match s.map x with
  | some f => pure f
  | none => do
    let f ← onRef (eval P x)
    Run.modify (fun s => { s with map := s.map.put x f })
    pure f

/-- `problem::fitness` (src/problem.cpp 353-379) of the penalized problem, `penalized_udp::fitness`,
cstrs_self_adaptive.cpp 90-125. The result has one component, so the size check of the result passes. -/
def caFitness (v : CaEnv K σ) (P : AProb K) (x : List (Fl K)) : Run (CaSt K σ) (List (Fl K)) :=
  if x.length ≠ P.info.nx then Run.throw .invalidArgument
  else do
    let f ← caLookup P x
    let s ← Run.get
    let y ← Run.lift (caValue v.op v.ex P.info.nec P.info.nc s.ref.pop.tol s.pen f)
    pure [y]

/-- What `pop.get_problem()` of `new_pop` says: same dimension, one objective, no constraints. -/
def caInfo (P : AProb K) : Pop.Info := ⟨P.info.nx, 1, 0, 0, false⟩

/-- What an algorithm does, seen from the problem: it asks for fitness vectors (a call may also throw) and finally returns a
population or throws. Its parameters and random numbers are part of the plan. Algorithms that do not end are not covered. -/
inductive Plan (K : Type) where
  | done (p : Pop.State K)
  | fail (e : Exn)
  | ask (x : List (Fl K)) (k : Except Exn (List (Fl K)) → Plan K)

/-- The result of a call as an `Except`; nothing else than `ok` and `throws` is passed on. -/
def caTell (k : Except Exn (List (Fl K)) → Run (CaSt K σ) Unit) (m : Run (CaSt K σ) (List (Fl K))) : Run (CaSt K σ) Unit :=
  fun s => match m s with
    | (.ok f, s') => k (.ok f) s'
    | (.throws e, s') => k (.error e) s'
    | (.ub, s') => (.ub, s')
    | (.nofuel, s') => (.nofuel, s')

/-- `new_pop = m_algorithm.evolve(new_pop)`, cstrs_self_adaptive.cpp 496. -/
def Plan.exec (v : CaEnv K σ) (P : AProb K) : Plan K → Run (CaSt K σ) Unit
  | .done p => Run.modify (fun s => { s with inn := p })
  | .fail e => Run.throw e
  | .ask x k => caTell (fun r => (k r).exec v P) (caFitness v P x)

/-- `update()` of the penalized problem, with the cache: cstrs_self_adaptive.cpp 132-300. -/
def caRefresh (v : CaEnv K σ) (P : AProb K) : Run (CaSt K σ) Unit := do
  let s ← Run.get
  let pn ← Run.lift (caUpdate v.op P.info.nec P.info.nc s.ref.pop.tol s.ref.pop.f)
  Run.modify (fun s => { s with pen := pn, map := caCache s.ref.pop.x s.ref.pop.f })

/-- `new_pop.push_back(pop.get_x()[i])`, cstrs_self_adaptive.cpp 446, src/population.cpp 182-185. -/
def caPush (v : CaEnv K σ) (P : AProb K) (_ : Unit) (i : Nat) : Run (CaSt K σ) Unit := do
  let s ← Run.get
  let x ← Run.lift (Outcome.get s.ref.pop.x i)
  let f ← caFitness v P x
  onInn (Pop.pushBackImpl v.sq (caInfo P) x f)

/-- `new_pop.set_x(i, pop.get_x()[i])`, cstrs_self_adaptive.cpp 462, src/population.cpp 539-542. -/
def caSetX (v : CaEnv K σ) (P : AProb K) (_ : Unit) (i : Nat) : Run (CaSt K σ) Unit := do
  let s ← Run.get
  let x ← Run.lift (Outcome.get s.ref.pop.x i)
  let f ← caFitness v P x
  onInn (Pop.setXF v.sq (caInfo P) i x f)

/-- `it_f->second`, cstrs_self_adaptive.cpp 501-503: undefined if the point is not in the cache (the assertion is only
there in debug builds). -/
def caFound : Option (List (Fl K)) → Outcome (List (Fl K))
  | some f => .ok f
  | none => .ub

/-- One individual is copied back, cstrs_self_adaptive.cpp 499-504. -/
def caBack (v : CaEnv K σ) (P : AProb K) (_ : Unit) (i : Nat) : Run (CaSt K σ) Unit := do
  let s ← Run.get
  let x ← Run.lift (Outcome.get s.inn.x i)
  let f ← Run.lift (caFound (s.map x))
  onRef (onPop (Pop.setXF v.sq P.info i x f))

/-- Body of the main loop, cstrs_self_adaptive.cpp 450-506, without the log. `plan` is what the inner algorithm does with
`new_pop`. -/
def caIter (v : CaEnv K σ) (P : AProb K) (plan : Pop.State K → Plan K) : Run (CaSt K σ) Unit := do
  let s ← Run.get
  let b ← Run.lift (Pop.bestIdx v.srt v.sq P.info s.ref.pop.f s.ref.pop.tol)
  let bx ← Run.lift (Outcome.get s.ref.pop.x b)
  let bf ← Run.lift (Outcome.get s.ref.pop.f b)
  let w ← Run.lift (Pop.worstIdx v.srt v.sq P.info s.ref.pop.f s.ref.pop.tol)
  caRefresh v P
  (List.range s.inn.id.length).foldlM (caSetX v P) ()
  let s1 ← Run.get
  (plan s1.inn).exec v P
  (List.range s.ref.pop.id.length).foldlM (caBack v P) ()
  onRef (onPop (Pop.setXF v.sq P.info w bx bf))

/-- The main loop, cstrs_self_adaptive.cpp 450-506. There is one plan per iteration, as the inner algorithm may do something
else each time. (`iters` is an `unsigned`; for `iters = 2^32 - 1` the loop does not end, which is not modelled.) -/
def caLoop (v : CaEnv K σ) (P : AProb K) : List (Pop.State K → Plan K) → Run (CaSt K σ) Unit
  | [] => pure ()
  | p :: ps => do
    caIter v P p
    caLoop v P ps

/-- The state when the penalized problem and `new_pop` are made, cstrs_self_adaptive.cpp 440-447; `rng` are the IDs the
engine of `new_pop` is going to produce. -/
def caStart (v : CaEnv K σ) (P : AProb K) (rng : Nat → Nat) (s : St K σ) : Outcome (CaSt K σ) := do
  let pn ← caUpdate v.op P.info.nec P.info.nc s.pop.tol s.pop.f
  pure ⟨s, pn, caCache s.pop.x s.pop.f, Pop.empty [] rng []⟩

/-- `cstrs_self_adaptive::evolve`, cstrs_self_adaptive.cpp 403-508, after the checks. -/
def caMain (v : CaEnv K σ) (P : AProb K) (plans : List (Pop.State K → Plan K)) : Run (CaSt K σ) Unit := do
  let s ← Run.get
  (List.range s.ref.pop.id.length).foldlM (caPush v P) ()
  caLoop v P plans

/-- `cstrs_self_adaptive::evolve`, cstrs_self_adaptive.cpp 403-508, without the log. -/
def caEvolve (v : CaEnv K σ) (P : AProb K) (rng : Nat → Nat) (plans : List (Pop.State K → Plan K)) : Run (St K σ) Unit := fun s =>
  if P.info.nobj ≠ 1 then (.throws .invalidArgument, s)
  else if P.info.stochastic then (.throws .invalidArgument, s)
  else if P.info.nc = 0 then (.throws .invalidArgument, s)
  else if s.pop.id.length < 4 then (.throws .invalidArgument, s)
  else match caStart v P rng s with
    | .ok t => ((caMain v P plans t).1, (caMain v P plans t).2.ref)
    | .throws e => (.throws e, s)
    | .ub => (.ub, s)
    | .nofuel => (.nofuel, s)

end Verif.Alg
