import Verif.Model.Sga
import Verif.Model.Crowding
import Verif.Model.Bfe

/-!
# Model of src/algorithms/nsga2.cpp

The log and the screen output (src/algorithms/nsga2.cpp 144-174) are not modelled.
-/

set_option autoImplicit false

namespace Verif.Alg

open Verif Prob Genetic MO

variable {K σ : Type} [Field K] [LinearOrder K]

/-- What a multi-objective evolutionary algorithm is run with, besides `Env`: the distributions and `std::pow`. -/
structure MoEnv (K σ : Type) extends Env K σ where
  d : Dist K σ
  pw : Fl K → Fl K → Fl K

/-! ## Shared by several algorithms -/

/-- `detail::some_bound_is_equal`, src/utils/generic.cpp 56-68. -/
def someBoundEqual (lb ub : List (Fl K)) : Bool := (lb.zip ub).any (fun p => Fl.eq p.1 p.2)

/-- `detail::mo_tournament_selection_impl`, src/utils/genetic_operators.cpp 200-211. -/
def moTournament (g : Gen K σ) (i j : Nat) (rank : List Nat) (cd : List (Fl K)) : Run σ Nat := do
  let ri ← Run.lift (Outcome.get rank i)
  let rj ← Run.lift (Outcome.get rank j)
  if ri < rj then pure i
  else if ri > rj then pure j
  else do
    let ci ← Run.lift (Outcome.get cd i)
    let cj ← Run.lift (Outcome.get cd j)
    if Fl.gt ci cj then pure i
    else if Fl.lt ci cj then pure j
    else do
      let r ← g.draw01
      if Fl.lt r half then pure i else pure j

/-- A batch fitness evaluator: what it returns for a sequence of decision vectors laid out next to each other, given the
calls of the fitness function before. -/
abbrev Batch (K : Type) := List (ECall K) → List (Fl K) → User (List (Fl K))

/-- the chunk number `i` of size `n` -/
def chunk (l : List (Fl K)) (n i : Nat) : List (Fl K) := (l.drop (i * n)).take n

/-- The evaluation of the points `xs` by a batch fitness evaluator: `genes` is filled with the points, nsga2.cpp 241-250;
`bfe::operator()`, src/bfe.cpp 91-110; the result is cut into chunks of size `nobj`, nsga2.cpp 259-264 (inside the loop
that fills `popnew`). The evaluations are recorded in the order of the points. -/
def evalBatch (P : AProb K) (b : Batch K) (xs : List (List (Fl K))) : Run (St K σ) (List (List (Fl K))) := fun s =>
  match checkInput P.info.nx xs.flatten with
  | .ok _ =>
    match b s.evs xs.flatten with
    | .error e => (.throws e, s)
    | .ok fvs =>
      match checkOutput P.info.nx P.info.nf xs.flatten fvs with
      | .ok _ =>
        let fs := (List.range xs.length).map (chunk fvs P.info.nobj)
        (.ok fs, { s with evs := s.evs ++ (xs.zip fs).map (fun p => (p.1, .ok p.2)) })
      | .throws e => (.throws e, s)
      | .ub => (.ub, s)
      | .nofuel => (.nofuel, s)
  | .throws e => (.throws e, s)
  | .ub => (.ub, s)
  | .nofuel => (.nofuel, s)

/-! ## nsga2 -/

/-- The parameters; `bfe` is set by `set_bfe`. -/
structure Nsga2 (K : Type) where
  gens : Nat
  cr : Fl K
  etaC : Fl K
  m : Fl K
  etaM : Fl K
  bfe : Option (Batch K)

/-- The constructor, nsga2.cpp 60-79. -/
def nsga2Ctor (gens : Nat) (cr etaC m etaM : Fl K) : Outcome (Nsga2 K) :=
  if Fl.ge cr (.fin 1) || Fl.lt cr (.fin 0) then .throws .invalidArgument
  else if Fl.lt m (.fin 0) || Fl.gt m (.fin 1) then .throws .invalidArgument
  else if Fl.lt etaC (.fin 1) || Fl.gt etaC (.fin 100) then .throws .invalidArgument
  else if Fl.lt etaM (.fin 1) || Fl.gt etaM (.fin 100) then .throws .invalidArgument
  else .ok ⟨gens, cr, etaC, m, etaM, none⟩

/-- Crowding distances of one front, nsga2.cpp 188-206. -/
def nsgaFront (v : MoEnv K σ) (fs : List (List (Fl K))) (cd : List (Fl K)) (front : List Nat) : Outcome (List (Fl K)) :=
  if front.length = 1 then do
    let a ← Outcome.get front 0
    Outcome.set cd a .pinf
  else if front.length = 2 then do
    let a ← Outcome.get front 0
    let b ← Outcome.get front 1
    let cd ← Outcome.set cd a .pinf
    Outcome.set cd b .pinf
  else do
    let pts ← front.mapM (fun i => Outcome.get fs i)
    let c ← crowdingDistance v.op v.srt pts
    (List.range c.length).foldlM (fun cd i => do
      let a ← Outcome.get front i
      let w ← Outcome.get c i
      Outcome.set cd a w) cd

/-- Ranks and crowding distances of the population, nsga2.cpp 184-206. -/
def nsgaCrowd (v : MoEnv K σ) (fs : List (List (Fl K))) (NP : Nat) : Outcome (List Nat × List (Fl K)) := do
  let t ← fnds fs
  let cd ← t.fronts.foldlM (nsgaFront v fs) (List.replicate NP (.fin 0))
  .ok (t.rank, cd)

/-- Two children of the parents chosen among the individuals `sh[i]`, …, `sh[i + 3]`, nsga2.cpp 217-222, 228-233, 270-275,
284-289. -/
def nsgaBreed [FloorRing K] (v : MoEnv K σ) (P : AProb K) (A : Nsga2 K) (xs : List (List (Fl K))) (rank : List Nat)
    (cd : List (Fl K)) (sh : List Nat) (i : Nat) : Run σ (List (Fl K) × List (Fl K)) := do
  let a ← Run.lift (Outcome.get sh i)
  let b ← Run.lift (Outcome.get sh (i + 1))
  let p ← moTournament v.g a b rank cd
  let a ← Run.lift (Outcome.get sh (i + 2))
  let b ← Run.lift (Outcome.get sh (i + 3))
  let q ← moTournament v.g a b rank cd
  let x ← Run.lift (Outcome.get xs p)
  let y ← Run.lift (Outcome.get xs q)
  let c ← sbxImpl v.g v.pw v.op x y P.lb P.ub P.nix A.cr A.etaC
  let c1 ← polyImpl v.g v.pw v.op c.1 P.lb P.ub P.nix A.m A.etaM
  let c2 ← polyImpl v.g v.pw v.op c.2 P.lb P.ub P.nix A.m A.etaM
  pure (c1, c2)

/-- Body of the loop for the batch evaluator, nsga2.cpp 215-239. -/
def nsgaFour [FloorRing K] (v : MoEnv K σ) (P : AProb K) (A : Nsga2 K) (xs : List (List (Fl K))) (rank : List Nat)
    (cd : List (Fl K)) (sh1 sh2 : List Nat) (acc : List (List (Fl K))) (k : Nat) : Run σ (List (List (Fl K))) := do
  let c ← nsgaBreed v P A xs rank cd sh1 (4 * k)
  let d ← nsgaBreed v P A xs rank cd sh2 (4 * k)
  pure (acc ++ [c.1, c.2, d.1, d.2])

/-- Body of the loop without batch evaluator, nsga2.cpp 268-296. The result are the individuals pushed into `popnew`.
Simplification: `popnew` is a copy of the population that is thrown away; of it only the decision vectors and objectives
are modelled. -/
def nsgaEvalFour [FloorRing K] (v : MoEnv K σ) (P : AProb K) (A : Nsga2 K) (xs : List (List (Fl K))) (rank : List Nat)
    (cd : List (Fl K)) (sh1 sh2 : List Nat) (acc : List (List (Fl K) × List (Fl K))) (k : Nat) :
    Run (St K σ) (List (List (Fl K) × List (Fl K))) := do
  let c ← onRng (nsgaBreed v P A xs rank cd sh1 (4 * k))
  let f1 ← eval P c.1
  let f2 ← eval P c.2
  let d ← onRng (nsgaBreed v P A xs rank cd sh2 (4 * k))
  let f3 ← eval P d.1
  let f4 ← eval P d.2
  pure (acc ++ [(c.1, f1), (c.2, f2), (d.1, f3), (d.2, f4)])

/-- The offspring with their objectives, nsga2.cpp 208-297. The loop `for (i = 0u; i < NP; i += 4)` is written with
`i = 4 * k`; `NP` is a multiple of 4. -/
def nsgaKids [FloorRing K] (v : MoEnv K σ) (P : AProb K) (A : Nsga2 K) (NP : Nat) (xs : List (List (Fl K))) (rank : List Nat)
    (cd : List (Fl K)) (sh1 sh2 : List Nat) : Run (St K σ) (List (List (Fl K) × List (Fl K))) :=
  match A.bfe with
  | some b => do
    let ys ← onRng ((List.range (NP / 4)).foldlM (nsgaFour v P A xs rank cd sh1 sh2) [])
    let fs ← evalBatch P b ys
    pure (ys.zip fs)
  | none => (List.range (NP / 4)).foldlM (nsgaEvalFour v P A xs rank cd sh1 sh2) []

/-- `pop.set_xf(i, popnew.get_x()[best_idx[i]], popnew.get_f()[best_idx[i]])`, nsga2.cpp 302-304. -/
def nsgaInsert (v : MoEnv K σ) (P : AProb K) (U : List (List (Fl K) × List (Fl K))) (best : List Nat) (_ : Unit) (i : Nat) :
    Run (St K σ) Unit := do
  let b ← Run.lift (Outcome.get best i)
  let p ← Run.lift (Outcome.get U b)
  onPop (Pop.setXF v.sq P.info i p.1 p.2)

/-- Body of the main loop, nsga2.cpp 176-304. The local variables are `shuffle1` and `shuffle2`. -/
def nsgaGen [FloorRing K] (v : MoEnv K σ) (P : AProb K) (A : Nsga2 K) (NP : Nat) (_ : Nat) (sh : List Nat × List Nat) :
    Run (St K σ) ((List Nat × List Nat) × Bool) := do
  let s ← Run.get
  let sh1 ← onRng (v.d.shuffle sh.1)
  let sh2 ← onRng (v.d.shuffle sh.2)
  let rc ← Run.lift (nsgaCrowd v s.pop.f NP)
  let kids ← nsgaKids v P A NP s.pop.x rc.1 rc.2 sh1 sh2
  let U := s.pop.x.zip s.pop.f ++ kids
  let best ← Run.lift (selectBestNMo v.op v.srt (U.map (·.2)) NP)
  (List.range NP).foldlM (nsgaInsert v P U best) ()
  pure ((sh1, sh2), false)

/-- `nsga2::evolve`, nsga2.cpp 91-307. -/
def nsga2Evolve [FloorRing K] (v : MoEnv K σ) (P : AProb K) (A : Nsga2 K) (fuel : Nat) : Run (St K σ) Unit := do
  let s ← Run.get
  if someBoundEqual P.lb P.ub then Run.throw .invalidArgument
  else if P.info.stochastic then Run.throw .invalidArgument
  else if P.info.nc ≠ 0 then Run.throw .invalidArgument
  else if P.info.nf < 2 then Run.throw .invalidArgument
  else if s.pop.id.length < 5 ∨ s.pop.id.length % 4 ≠ 0 then Run.throw .invalidArgument
  else do
    let _ ← genLoop (nsgaGen v P A s.pop.id.length) A.gens fuel 1
      (List.range s.pop.id.length, List.range s.pop.id.length)
    pure ()

end Verif.Alg
