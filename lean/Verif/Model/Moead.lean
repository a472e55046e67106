import Verif.Model.Nsga2
import Verif.Model.Knn
import Verif.Model.Decompose

/-!
# Model of src/algorithms/moead.cpp

The log and the screen output (src/algorithms/moead.cpp 174-207) are not modelled.
-/

set_option autoImplicit false

namespace Verif.Alg

open Verif Prob Genetic MO

variable {K σ : Type} [Field K] [LinearOrder K]

/-- What `moead` is run with, besides `MoEnv`: `std::sort` on doubles and the two literals `1e-4` and `5.` of
`decompose_objectives`. -/
structure MoeadEnv (K σ : Type) extends MoEnv K σ where
  srtF : (Fl K → Fl K → Bool) → List (Fl K) → List (Fl K)
  eps : Fl K
  theta : Fl K

/-- The parameters, include/pagmo/algorithms/moead.hpp 211-220. -/
structure Moead (K : Type) where
  gens : Nat
  weightGen : String
  decomp : String
  neighbours : Nat
  cr : Fl K
  fac : Fl K
  etaM : Fl K
  realb : Fl K
  limit : Nat
  preserve : Bool
  deriving DecidableEq

/-- The constructor, moead.cpp 53-94. NaN passes the comparisons. -/
def moeadCtor (gens : Nat) (weightGen decomp : String) (neighbours : Nat) (cr fac etaM realb : Fl K) (limit : Nat)
    (preserve : Bool) : Outcome (Moead K) :=
  if weightGen ≠ "random" ∧ weightGen ≠ "grid" ∧ weightGen ≠ "low discrepancy" then .throws .invalidArgument
  else if decomp ≠ "tchebycheff" ∧ decomp ≠ "weighted" ∧ decomp ≠ "bi" then .throws .invalidArgument
  else if Fl.gt cr (.fin 1) || Fl.lt cr (.fin 0) then .throws .invalidArgument
  else if Fl.gt fac (.fin 1) || Fl.lt fac (.fin 0) then .throws .invalidArgument
  else if Fl.lt etaM (.fin 0) then .throws .invalidArgument
  else if Fl.gt realb (.fin 1) || Fl.lt realb (.fin 0) then .throws .invalidArgument
  else if neighbours < 2 then .throws .invalidArgument
  else .ok ⟨gens, weightGen, decomp, neighbours, cr, fac, etaM, realb, limit, preserve⟩

/-- the engine after `k` numbers from [0, 1) -/
def after01 (g : Gen K σ) : Nat → σ → σ
  | 0, e => e
  | k + 1, e => after01 g k (g.real 0 1 e).2

/-- `decomposition_weights(prob.get_nf(), NP, m_weight_generation, m_e)`, moead.cpp 153: the "random" method draws
`(NP - nf) * (nf - 1)` numbers from the engine (include/pagmo/utils/multi_objective.hpp 198-205). -/
def moeadWeights (v : MoeadEnv K σ) (nf nw : Nat) (method : String) : Run σ (List (List (Fl K))) := fun e =>
  (Dec.decompositionWeights v.srtF (fun i => (v.g.real 0 1 (after01 v.g i e)).1) nf nw method,
   if method = "random" then after01 v.g ((nw - nf) * (nf - 1)) e else e)

/-- One draw of `select_parents`, moead.cpp 346-350. -/
def moeadDraw (g : Gen K σ) (n : Nat) (neigh : List (List Nat)) (whole : Bool) : Run σ Nat := do
  let ns ← Run.lift (Outcome.get neigh n)
  let q ← g.drawNat 0 (neigh.length - 1)
  if whole then pure q else Run.lift (Outcome.get ns (q % ns.length))

/-- `select_parents`, moead.cpp 333-362; the argument is the fuel. -/
def moeadParents (g : Gen K σ) (n : Nat) (neigh : List (List Nat)) (whole : Bool) : Nat → List Nat → Run σ (List Nat)
  | 0, _ => Run.lift .nofuel
  | k + 1, ret =>
    if ret.length < 2 then do
      let p ← moeadDraw g n neigh whole
      moeadParents g n neigh whole k (if ret.contains p then ret else ret ++ [p])
    else pure ret

/-- `if (candidate[kk] < lb[kk]) candidate[kk] = lb[kk] + drng(m_e) * (x - lb[kk])`, moead.cpp 231-233; `w` is
`candidate[kk]`. -/
def moeadLow (v : MoeadEnv K σ) (l x w : Fl K) : Run σ (Fl K) :=
  if Fl.lt w l then do
    let r ← v.g.draw01
    pure (v.op.add l (v.op.mul r (v.op.sub x l)))
  else pure w

/-- `if (candidate[kk] > ub[kk]) candidate[kk] = ub[kk] - drng(m_e) * (ub[kk] - x)`, moead.cpp 234-236. -/
def moeadHigh (v : MoeadEnv K σ) (u x w : Fl K) : Run σ (Fl K) :=
  if Fl.gt w u then do
    let r ← v.g.draw01
    pure (v.op.sub u (v.op.mul r (v.op.sub u x)))
  else pure w

/-- New value of a component, moead.cpp 226-239: `x`, `a`, `b` are the components of individual `n` and of the parents. -/
def moeadValue (v : MoeadEnv K σ) (A : Moead K) (l u x a b : Fl K) : Run σ (Fl K) := do
  let r ← v.g.draw01
  if Fl.lt r A.cr then do
    let w ← moeadLow v l x (v.op.add x (v.op.mul A.fac (v.op.sub a b)))
    moeadHigh v u x w
  else pure x

/-- Body of the loop over the components, moead.cpp 225-240. -/
def moeadGene (v : MoeadEnv K σ) (P : AProb K) (A : Moead K) (x a b c : List (Fl K)) (k : Nat) : Run σ (List (Fl K)) := do
  let l ← Run.lift (Outcome.get P.lb k)
  let u ← Run.lift (Outcome.get P.ub k)
  let xk ← Run.lift (Outcome.get x k)
  let ak ← Run.lift (Outcome.get a k)
  let bk ← Run.lift (Outcome.get b k)
  let w ← moeadValue v A l u xk ak bk
  Run.lift (Outcome.set c k w)

/-- The candidate, moead.cpp 221-242. The vector `candidate` is used for one candidate after the other; as all its
components are overwritten first, a new one is used here. The polynomial mutation is told that there are no integer
components. -/
def moeadCandidate [FloorRing K] (v : MoeadEnv K σ) (P : AProb K) (A : Moead K) (xs : List (List (Fl K))) (neigh : List (List Nat))
    (fuel n : Nat) (whole : Bool) : Run σ (List (Fl K)) := do
  let ps ← moeadParents v.g n neigh whole fuel []
  let p ← Run.lift (Outcome.get ps 0)
  let q ← Run.lift (Outcome.get ps 1)
  let x ← Run.lift (Outcome.get xs n)
  let a ← Run.lift (Outcome.get xs p)
  let b ← Run.lift (Outcome.get xs q)
  let c ← (List.range P.info.nx).foldlM (moeadGene v P A x a b) (List.replicate P.info.nx (.fin 0))
  polyImpl v.g v.pw v.op c P.lb P.ub 0 (v.op.div v.op.one (.fin (P.info.nx : K))) A.etaM

/-- `ideal_point[j] = std::min(new_f[j], ideal_point[j])`, moead.cpp 247 -/
def moeadMin (f z : List (Fl K)) (j : Nat) : Outcome (List (Fl K)) := do
  let a ← Outcome.get f j
  let b ← Outcome.get z j
  Outcome.set z j (Fl.stdMin a b)

/-- `std::min(ideal_point[j], new_f[j])`, moead.cpp 249-250 -/
def moeadMin2 (f z : List (Fl K)) (j : Nat) : Outcome (List (Fl K)) := do
  let a ← Outcome.get z j
  let b ← Outcome.get f j
  Outcome.set z j (Fl.stdMin a b)

/-- The ideal point is updated (twice), moead.cpp 245-250. -/
def moeadIdeal (nf : Nat) (f z : List (Fl K)) : Outcome (List (Fl K)) := do
  let z ← (List.range nf).foldlM (moeadMin f) z
  (List.range z.length).foldlM (moeadMin2 f) z

/-- `f2[0] < f1[0]`: is `f` better than the individual `pick` for the weight of the latter? moead.cpp 254-256, 276-278 -/
def moeadBetter (v : MoeadEnv K σ) (A : Moead K) (W fs : List (List (Fl K))) (z f : List (Fl K)) (pick : Nat) : Outcome Bool := do
  let fp ← Outcome.get fs pick
  let w ← Outcome.get W pick
  let f1 ← Dec.decomposeObjectives v.op v.sq v.eps v.theta fp w z A.decomp
  let f2 ← Dec.decomposeObjectives v.op v.sq v.eps v.theta f w z A.decomp
  let a ← Outcome.get f1 0
  let b ← Outcome.get f2 0
  .ok (Fl.lt b a)

/-- The replacement of the individual `pick` if the candidate is better, moead.cpp 254-259 and 276-281; the result is the
new value of `time`. -/
def moeadTry (v : MoeadEnv K σ) (P : AProb K) (A : Moead K) (W : List (List (Fl K))) (z x f : List (Fl K)) (t pick : Nat) :
    Run (St K σ) Nat := do
  let s ← Run.get
  let better ← Run.lift (moeadBetter v A W s.pop.f z f pick)
  if better then do
    onPop (Pop.setXF v.sq P.info pick x f)
    pure (t + 1)
  else pure t

/-- `pick`, moead.cpp 270-275. -/
def moeadPick (neigh : List (List Nat)) (n : Nat) (whole : Bool) (j : Nat) : Outcome Nat :=
  if whole then .ok j
  else do
    let ns ← Outcome.get neigh n
    Outcome.get ns j

/-- The loop over the neighbours, moead.cpp 269-287; the list is what is left of `shuffle2`. -/
def moeadSpread (v : MoeadEnv K σ) (P : AProb K) (A : Moead K) (W : List (List (Fl K))) (neigh : List (List Nat)) (n : Nat)
    (whole : Bool) (z x f : List (Fl K)) : List Nat → Nat → Run (St K σ) Unit
  | [], _ => pure ()
  | j :: js, t => do
    let pick ← Run.lift (moeadPick neigh n whole j)
    let t ← moeadTry v P A W z x f t pick
    if t ≥ A.limit ∧ A.preserve = true then pure ()
    else moeadSpread v P A W neigh n whole z x f js t

/-- `size`, moead.cpp 261-265 -/
def moeadSize (neigh : List (List Nat)) (NP n : Nat) (whole : Bool) : Outcome Nat :=
  if whole then .ok NP
  else do
    let ns ← Outcome.get neigh n
    .ok ns.length

/-- Insertion of the candidate, moead.cpp 251-287. -/
def moeadInsert (v : MoeadEnv K σ) (P : AProb K) (A : Moead K) (W : List (List (Fl K))) (neigh : List (List Nat)) (NP n : Nat)
    (whole : Bool) (z x f : List (Fl K)) : Run (St K σ) Unit := do
  let t ← moeadTry v P A W z x f 0 n
  let size ← Run.lift (moeadSize neigh NP n whole)
  let js ← onRng (v.d.shuffle (List.range size))
  moeadSpread v P A W neigh n whole z x f js t

/-- Body of the loop over the decomposed problems, moead.cpp 211-288; the local variable is the ideal point. -/
def moeadOne [FloorRing K] (v : MoeadEnv K σ) (P : AProb K) (A : Moead K) (W : List (List (Fl K))) (neigh : List (List Nat))
    (NP fuel : Nat) (z : List (Fl K)) (n : Nat) : Run (St K σ) (List (Fl K)) := do
  let r ← onRng v.g.draw01
  let whole := !(Fl.lt r A.realb || !A.preserve)
  let s ← Run.get
  let x ← onRng (moeadCandidate v P A s.pop.x neigh fuel n whole)
  let f ← eval P x
  let z ← Run.lift (moeadIdeal P.info.nf f z)
  moeadInsert v P A W neigh NP n whole z x f
  pure z

/-- Body of the main loop, moead.cpp 173-289. The local variables are `shuffle` and the ideal point. -/
def moeadGen [FloorRing K] (v : MoeadEnv K σ) (P : AProb K) (A : Moead K) (W : List (List (Fl K))) (neigh : List (List Nat))
    (NP fuel : Nat) (_ : Nat) (b : List Nat × List (Fl K)) : Run (St K σ) ((List Nat × List (Fl K)) × Bool) := do
  let sh ← onRng (v.d.shuffle b.1)
  let z ← sh.foldlM (moeadOne v P A W neigh NP fuel) b.2
  pure ((sh, z), false)

/-- `moead::evolve`, moead.cpp 103-291. `NP - 1u` does not wrap around, `NP` not being zero. -/
def moeadEvolve [FloorRing K] (v : MoeadEnv K σ) (P : AProb K) (A : Moead K) (fuel : Nat) : Run (St K σ) Unit := do
  let s ← Run.get
  if someBoundEqual P.lb P.ub then Run.throw .invalidArgument
  else if s.pop.id.length = 0 then Run.throw .invalidArgument
  else if P.info.nf < 2 then Run.throw .invalidArgument
  else if P.info.nc ≠ 0 then Run.throw .invalidArgument
  else if P.info.stochastic then Run.throw .invalidArgument
  else if A.neighbours > s.pop.id.length - 1 then Run.throw .invalidArgument
  else if A.gens = 0 then pure ()
  else do
    let W ← onRng (moeadWeights v P.info.nf s.pop.id.length A.weightGen)
    let neigh ← Run.lift (Knn.knn v.op v.sq v.srt W A.neighbours)
    let z ← Run.lift (ideal s.pop.f)
    let _ ← genLoop (moeadGen v P A W neigh s.pop.id.length fuel) A.gens fuel 1 (List.range s.pop.id.length, z)
    pure ()

end Verif.Alg
