import Verif.Model.Moead

/-!
# Generational MOEA/D

`moead_gen`: src/algorithms/moead_gen.cpp. The population of the model is the one of `Verif.Model.Algo`; messages and the log
(moead_gen.cpp 179-211) are left out.
-/

set_option autoImplicit false

namespace Verif.Alg

open Verif Run Prob Pop Genetic MO

variable {K σ : Type} [Field K] [LinearOrder K]

/-- The constructor, moead_gen.cpp 57-98: the checks are the ones of moead.cpp 57-95, in the same order. -/
def mgCtor (gens : Nat) (wg dec : String) (nb : Nat) (cr fac etaM realb : Fl K) (limit : Nat) (pres : Bool) : Outcome (Moead K) :=
  moeadCtor gens wg dec nb cr fac etaM realb limit pres

/-- Body of the loop that makes the candidates, moead_gen.cpp 228-268. The local variables `fidtemp`,
`whole_populationtemp`, `poptemp` are one list of triples. -/
def mgMake [FloorRing K] (v : MoeadEnv K σ) (P : AProb K) (A : Moead K) (neigh : List (List Nat)) (fuel : Nat)
    (acc : List (Nat × Bool × List (Fl K))) (n : Nat) : Run (St K σ) (List (Nat × Bool × List (Fl K))) := do
  let r ← onRng v.g.draw01
  let whole := !(Fl.lt r A.realb || !A.preserve)
  let s ← Run.get
  let x ← onRng (moeadCandidate v P A s.pop.x neigh fuel n whole)
  pure (acc ++ [(n, whole, x)])

/-- Body of the loop that evaluates without a batch evaluator, moead_gen.cpp 292-295. -/
def mgEvalOne (P : AProb K) (acc : List (List (Fl K))) (x : List (Fl K)) : Run (St K σ) (List (List (Fl K))) := do
  let f ← eval P x
  pure (acc ++ [f])

/-- `ftemp`, moead_gen.cpp 269-296. `genes` has the size `NP * dim`, which is the size of all candidates together. -/
def mgEval (P : AProb K) (bfe : Option (Batch K)) (xs : List (List (Fl K))) : Run (St K σ) (List (List (Fl K))) :=
  match bfe with
  | some b => evalBatch P b xs
  | none => xs.foldlM (mgEvalOne P) []

/-- Body of the loop that inserts the candidates, moead_gen.cpp 297-344. -/
def mgPut (v : MoeadEnv K σ) (P : AProb K) (A : Moead K) (W : List (List (Fl K))) (neigh : List (List Nat)) (NP : Nat)
    (items : List (Nat × Bool × List (Fl K))) (fs : List (List (Fl K))) (z : List (Fl K)) (i : Nat) : Run (St K σ) (List (Fl K)) := do
  let it ← Run.lift (Outcome.get items i)
  let f ← Run.lift (Outcome.get fs i)
  let z ← Run.lift (moeadIdeal P.info.nf f z)
  moeadInsert v P A W neigh NP it.1 it.2.1 z it.2.2 f
  pure z

/-- The loop that inserts the candidates. Its counter is an `unsigned int`: with 2^32 candidates or more it does not end. -/
def mgPutAll (v : MoeadEnv K σ) (P : AProb K) (A : Moead K) (W : List (List (Fl K))) (neigh : List (List Nat)) (NP : Nat)
    (items : List (Nat × Bool × List (Fl K))) (fs : List (List (Fl K))) (z : List (Fl K)) : Run (St K σ) (List (Fl K)) :=
  if 2 ^ 32 ≤ items.length then Run.lift .nofuel
  else (List.range items.length).foldlM (mgPut v P A W neigh NP items fs) z

/-- Body of the main loop, moead_gen.cpp 177-345. The local variables are `shuffle` and the ideal point. -/
def mgGen [FloorRing K] (v : MoeadEnv K σ) (P : AProb K) (A : Moead K) (bfe : Option (Batch K)) (W : List (List (Fl K)))
    (neigh : List (List Nat)) (NP fuel : Nat) (_ : Nat) (b : List Nat × List (Fl K)) : Run (St K σ) ((List Nat × List (Fl K)) × Bool) := do
  let sh ← onRng (v.d.shuffle b.1)
  let items ← sh.foldlM (mgMake v P A neigh fuel) []
  let fs ← mgEval P bfe (items.map (fun it => it.2.2))
  let z ← mgPutAll v P A W neigh NP items fs b.2
  pure ((sh, z), false)

/-- `moead_gen::evolve`, moead_gen.cpp 107-347; `bfe` is what `set_bfe` (moead_gen.cpp 363-366) stored. -/
def mgEvolve [FloorRing K] (v : MoeadEnv K σ) (P : AProb K) (A : Moead K) (bfe : Option (Batch K)) (fuel : Nat) : Run (St K σ) Unit := do
  let s ← Run.get
  if someBoundEqual P.lb P.ub then Run.throw .invalidArgument
  else if s.pop.id.length = 0 then Run.throw .invalidArgument
  else if P.info.nf < 2 then Run.throw .invalidArgument
  else if P.info.nc ≠ 0 then Run.throw .invalidArgument
  else if P.info.stochastic then Run.throw .invalidArgument
  else if A.neighbours > s.pop.id.length - 1 then Run.throw .invalidArgument
  else if A.gens = 0 then pure ()
  else do
    let W ← onRng (moeadWeights v P.info.nf s.pop.id.length A.weightGen)
    let neigh ← Run.lift (Knn.knn v.op v.sq v.srt W A.neighbours)
    let z ← Run.lift (ideal s.pop.f)
    let _ ← genLoop (mgGen v P A bfe W neigh s.pop.id.length fuel) A.gens fuel 1 (List.range s.pop.id.length, z)
    pure ()

end Verif.Alg
