import Verif.Model.Sea
import Verif.Model.Genetic
import Verif.Model.MultiObjective

/-!
# Model of src/algorithms/sga.cpp

The log and the screen output (src/algorithms/sga.cpp 248-271) are not modelled.
-/

set_option autoImplicit false

namespace Verif.Alg

open Verif Prob

variable {K σ : Type} [Field K] [LinearOrder K]

/-! ## More of `<random>` -/

/-- The distributions that draw from a normal and a binomial distribution, and the order in which `std::shuffle` puts
`n` elements. -/
structure Dist (K σ : Type) where
  normal : σ → K × σ
  binom : Nat → K → σ → Nat × σ
  perm : Nat → σ → List Nat × σ

/-- What is known of them. -/
structure Dist.Lawful (d : Dist K σ) : Prop where
  binom_le : ∀ n p e, (d.binom n p e).1 ≤ n
  perm_perm : ∀ n e, (d.perm n e).1.Perm (List.range n)

/-- `std::normal_distribution<double>(0., 1.)(e)` -/
def Dist.drawNormal (d : Dist K σ) : Run σ (Fl K) := fun e => (.ok (.fin (d.normal e).1), (d.normal e).2)

/-- `std::binomial_distribution<size_type>(n, p)(e)`: undefined unless `0 ≤ p ≤ 1`. -/
def Dist.drawBinom (d : Dist K σ) (n : Nat) (p : Fl K) : Run σ Nat := fun e =>
  match p with
  | .fin p => if 0 ≤ p ∧ p ≤ 1 then (.ok (d.binom n p e).1, (d.binom n p e).2) else (.ub, e)
  | _ => (.ub, e)

/-- The elements of `xs` at the given positions. -/
def gather {α : Type} (xs : List α) (idx : List Nat) : Outcome (List α) :=
  idx.foldlM (fun acc i => do
    let a ← Outcome.get xs i
    .ok (acc ++ [a])) []

/-- `std::shuffle(xs.begin(), xs.end(), e)` -/
def Dist.shuffle {α : Type} (d : Dist K σ) (xs : List α) : Run σ (List α) := fun e =>
  (gather xs (d.perm xs.length e).1, (d.perm xs.length e).2)

/-! ## Parameters -/

inductive SgaCross where
  | exponential
  | binomial
  | single
  | sbx
  deriving DecidableEq

inductive SgaMut where
  | gaussian
  | uniform
  | polynomial
  deriving DecidableEq

inductive SgaSel where
  | tournament
  | truncated
  deriving DecidableEq

/-- The parameters: include/pagmo/algorithms/sga.hpp 270-282. -/
structure Sga (K : Type) where
  gens : Nat
  cr : Fl K
  etaC : Fl K
  m : Fl K
  paramM : Fl K
  paramS : Nat
  cross : SgaCross
  mutn : SgaMut
  sel : SgaSel
  deriving DecidableEq

/-- The maps, sga.cpp 58-110. -/
def sgaCrossOf (s : String) : Option SgaCross :=
  if s = "exponential" then some .exponential
  else if s = "binomial" then some .binomial
  else if s = "single" then some .single
  else if s = "sbx" then some .sbx
  else none

def sgaMutOf (s : String) : Option SgaMut :=
  if s = "gaussian" then some .gaussian
  else if s = "uniform" then some .uniform
  else if s = "polynomial" then some .polynomial
  else none

def sgaSelOf (s : String) : Option SgaSel :=
  if s = "tournament" then some .tournament else if s = "truncated" then some .truncated else none

/-- The constructor, sga.cpp 116-169. Which of the checks fails first cannot be observed; `map.left.at` of a name
that passed the checks finds it. NaN passes the comparisons. -/
def sgaCtor (gens : Nat) (cr etaC m paramM : Fl K) (paramS : Nat) (cross mutn sel : String) : Outcome (Sga K) :=
  if Fl.gt cr (.fin 1) || Fl.lt cr (.fin 0) then .throws .invalidArgument
  else if Fl.lt etaC (.fin 1) || Fl.gt etaC (.fin 100) then .throws .invalidArgument
  else if Fl.lt m (.fin 0) || Fl.gt m (.fin 1) then .throws .invalidArgument
  else if paramS = 0 then .throws .invalidArgument
  else
    match sgaMutOf mutn, sgaSelOf sel, sgaCrossOf cross with
    | some mu, some se, some cx =>
      if decide (mu = .polynomial) && (Fl.lt paramM (.fin 1) || Fl.gt paramM (.fin 100)) then .throws .invalidArgument
      else if decide (mu ≠ .polynomial) && (Fl.lt paramM (.fin 0) || Fl.gt paramM (.fin 1)) then .throws .invalidArgument
      else .ok ⟨gens, cr, etaC, m, paramM, paramS, cx, mu, se⟩
    | _, _, _ => .throws .invalidArgument

/-- What `sga` is run with, besides `Env`: the distributions, `std::pow` and `std::round`. -/
structure SgaEnv (K σ : Type) extends Env K σ where
  d : Dist K σ
  pw : Fl K → Fl K → Fl K
  rd : Fl K → Fl K

/-! ## Selection, sga.cpp 342-383 -/

/-- `F[a][0]`; inside the comparator of `std::sort` -/
def obj0 (F : List (List (Fl K))) (a : Nat) : Fl K := (F.getD a []).getD 0 .nan

/-- `[&F](a, b) { return detail::less_than_f(F[a][0], F[b][0]); }`, sga.cpp 351-353 and 279-281 -/
def objLess (F : List (List (Fl K))) (a b : Nat) : Bool := Fl.lessThanF (obj0 F a) (obj0 F b)

/-- `for (i = 0; i < retval.size(); ++i) retval[i] = best_idxs[i % m_param_s]`, sga.cpp 354-356. -/
def truncate (best : List Nat) (paramS n : Nat) : Outcome (List Nat) :=
  gather best ((List.range n).map (fun i => i % paramS))

/-- Body of the Fisher-Yates loop, sga.cpp 365-371. -/
def tourSwap (g : Gen K σ) (b : List Nat) (i : Nat) : Run σ (List Nat) := do
  let idx ← g.drawNat i (b.length - 1)
  let x ← Run.lift (Outcome.get b idx)
  let y ← Run.lift (Outcome.get b i)
  let b ← Run.lift (Outcome.set b idx y)
  Run.lift (Outcome.set b i x)

/-- Body of the loop over the participants, sga.cpp 374-378. -/
def tourBest (F : List (List (Fl K))) (b : List Nat) (w i : Nat) : Outcome Nat := do
  let c ← Outcome.get b i
  let fc ← Outcome.get F c
  let fw ← Outcome.get F w
  .ok (if Pop.vecLt fc fw then c else w)

/-- One tournament, sga.cpp 362-379. The state is `retval` (what was written so far) and `best_idxs`. -/
def tournament (g : Gen K σ) (paramS : Nat) (F : List (List (Fl K))) (s : List Nat × List Nat) (_ : Nat) :
    Run σ (List Nat × List Nat) := do
  let b ← (List.range paramS).foldlM (tourSwap g) s.2
  let w ← Run.lift (Outcome.get b 0)
  let w ← Run.lift ((List.range' 1 (paramS - 1)).foldlM (tourBest F b) w)
  pure (s.1 ++ [w], b)

/-- `perform_selection`, sga.cpp 342-383. -/
def sgaSelect (v : SgaEnv K σ) (A : Sga K) (F : List (List (Fl K))) : Run σ (List Nat) :=
  match A.sel with
  | .truncated => do
    let best ← Run.lift (stdSort v.srt (objLess F) (List.range F.length))
    Run.lift (truncate best A.paramS F.length)
  | .tournament => do
    let s ← (List.range F.length).foldlM (tournament v.g A.paramS F) ([], List.range F.length)
    pure s.1

/-! ## Crossover, sga.cpp 385-455 -/

/-- Body of the loop over the pairs, sga.cpp 400-404; `i = 2 * k`. -/
def sbxPair (v : SgaEnv K σ) (A : Sga K) (lb ub : List (Fl K)) (nix : Nat) (X : List (List (Fl K))) (k : Nat) :
    Run σ (List (List (Fl K))) := do
  let a ← Run.lift (Outcome.get X (2 * k))
  let b ← Run.lift (Outcome.get X (2 * k + 1))
  let c ← Genetic.sbxImpl v.g v.pw v.op a b lb ub nix A.cr A.etaC
  let X ← Run.lift (Outcome.set X (2 * k) c.1)
  Run.lift (Outcome.set X (2 * k + 1) c.2)

/-- Copying a gene of the second parent: sga.cpp 441. -/
def copyGene (p2 child : List (Fl K)) (j : Nat) : Outcome (List (Fl K)) := do
  let w ← Outcome.get p2 j
  Outcome.set child j w

/-- The crossover of `child` with `parent2`, sga.cpp 419-452. -/
def mate (g : Gen K σ) (A : Sga K) (dim : Nat) (child p2 : List (Fl K)) : Run σ (List (Fl K)) :=
  match A.cross with
  | .exponential => do
    let n ← g.drawNat 0 (dim - 1)
    expCross g A.cr dim (fun _ n => Outcome.get p2 n) dim child n
  | .binomial => do
    let n ← g.drawNat 0 (dim - 1)
    binCross g A.cr dim (fun _ n => Outcome.get p2 n) child n
  | .single => do
    let u ← g.draw01
    if Fl.lt u A.cr then do
      let n ← g.drawNat 0 (dim - 1)
      Run.lift ((List.range' n (dim - n)).foldlM (copyGene p2) child)
    else pure child
  | .sbx => pure child

/-- Body of the loop over the population, sga.cpp 411-453. The state is `X` and `all_idx`. -/
def crossOne (g : Gen K σ) (A : Sga K) (dim : Nat) (XC : List (List (Fl K))) (s : List (List (Fl K)) × List Nat) (i : Nat) :
    Run σ (List (List (Fl K)) × List Nat) := do
  let a ← Run.lift (Outcome.get s.2 0)
  let b ← Run.lift (Outcome.get s.2 i)
  let all ← Run.lift (Outcome.set s.2 0 b)
  let all ← Run.lift (Outcome.set all i a)
  let q ← g.drawNat 1 (all.length - 1)
  let k ← Run.lift (Outcome.get all q)
  let p2 ← Run.lift (Outcome.get XC k)
  let child ← Run.lift (Outcome.get s.1 i)
  let child ← mate g A dim child p2
  let X ← Run.lift (Outcome.set s.1 i child)
  pure (X, all)

/-- `perform_crossover`, sga.cpp 385-455; `dim` is the dimension of the problem. -/
def sgaCross (v : SgaEnv K σ) (A : Sga K) (lb ub : List (Fl K)) (nix : Nat) (X : List (List (Fl K))) :
    Run σ (List (List (Fl K))) :=
  if A.cross = .sbx then do
    let X ← v.d.shuffle X
    (List.range ((X.length + 1) / 2)).foldlM (sbxPair v A lb ub nix) X
  else do
    let s ← (List.range X.length).foldlM (crossOne v.g A lb.length X) (X, List.range X.length)
    pure s.1

/-! ## Mutation, sga.cpp 457-545 -/

/-- `static_cast<int>` of a double: undefined outside the range. -/
def castInt [FloorRing K] : Fl K → Outcome ℤ
  | .fin a =>
    let z : ℤ := if 0 ≤ a then ⌊a⌋ else ⌈a⌉
    if z < -2 ^ 31 ∨ 2 ^ 31 - 1 < z then .ub else .ok z
  | _ => .ub

/-- A random integer between the bounds: sga.cpp 498-500 and 532-534. -/
def randInt [FloorRing K] (g : Gen K σ) (l u : Fl K) : Run σ (Fl K) := do
  let a ← Run.lift (castInt l)
  let b ← Run.lift (castInt u)
  let z ← g.drawInt a b
  pure (.fin (g.ofInt z))

/-- The new value of a gene: sga.cpp 492-501, 506-513, 520-535. `x` is the old value, `real` means `gene_idx < dimc`. -/
def mutGene [FloorRing K] (v : SgaEnv K σ) (A : Sga K) (real : Bool) (l u x : Fl K) : Run σ (Fl K) :=
  match A.mutn with
  | .uniform => if real then Rnd.uniformRealFromRange v.g v.op l u else randInt v.g l u
  | .gaussian => do
    let n ← v.d.drawNormal
    let w := v.op.mul n (v.op.mul (v.op.sub u l) A.paramM)
    pure (v.op.add x (if real then w else v.rd w))
  | .polynomial =>
    if real then do
      let r ← v.g.draw01
      let ex := v.op.div v.op.one (v.op.add v.op.one A.paramM)
      if Fl.le r Genetic.half then
        pure (v.op.add x (v.op.mul (v.op.sub (v.pw (v.op.mul Genetic.two r) ex) v.op.one) (v.op.sub x l)))
      else
        pure (v.op.add x (v.op.mul (v.op.sub v.op.one (v.pw (v.op.mul Genetic.two (v.op.sub v.op.one r)) ex)) (v.op.sub u x)))
    else randInt v.g l u

/-- Body of the loop over the genes to be mutated. -/
def mutStep [FloorRing K] (v : SgaEnv K σ) (A : Sga K) (lb ub : List (Fl K)) (nix : Nat) (todo : List Nat) (x : List (Fl K))
    (j : Nat) : Run σ (List (Fl K)) := do
  let i ← Run.lift (Outcome.get todo j)
  let l ← Run.lift (Outcome.get lb i)
  let u ← Run.lift (Outcome.get ub i)
  let w ← Run.lift (Outcome.get x i)
  let w ← mutGene v A (decide (i < lb.length - nix)) l u w
  Run.lift (Outcome.set x i w)

/-- Body of the loop over the population, sga.cpp 481-543. The state is `X` and `to_be_mutated`. -/
def mutOne [FloorRing K] (v : SgaEnv K σ) (A : Sga K) (lb ub : List (Fl K)) (nix : Nat)
    (s : List (List (Fl K)) × List Nat) (i : Nat) : Run σ (List (List (Fl K)) × List Nat) := do
  let todo ← v.d.shuffle s.2
  let n ← v.d.drawBinom lb.length A.m
  let x ← Run.lift (Outcome.get s.1 i)
  let x ← (List.range n).foldlM (mutStep v A lb ub nix todo) x
  let x ← Run.lift (Rnd.forceBoundsStick x lb ub)
  let X ← Run.lift (Outcome.set s.1 i x)
  pure (X, todo)

/-- `perform_mutation`, sga.cpp 457-545. -/
def sgaMutate [FloorRing K] (v : SgaEnv K σ) (A : Sga K) (lb ub : List (Fl K)) (nix : Nat) (X : List (List (Fl K))) :
    Run σ (List (List (Fl K))) := do
  let s ← (List.range X.length).foldlM (mutOne v A lb ub nix) (X, List.range lb.length)
  pure s.1

/-! ## The generations -/

/-- The offspring: selection, crossover and mutation, sga.cpp 236-243. -/
def sgaOffspring [FloorRing K] (v : SgaEnv K σ) (P : AProb K) (A : Sga K) (x f : List (List (Fl K))) :
    Run σ (List (List (Fl K))) := do
  let idx ← sgaSelect v A f
  let X ← Run.lift (gather x idx)
  let X ← sgaCross v A P.lb P.ub P.nix X
  sgaMutate v A P.lb P.ub P.nix X

/-- Evaluation of the offspring, sga.cpp 245-247. -/
def evalOne (P : AProb K) (X F : List (List (Fl K))) (j : Nat) : Run (St K σ) (List (List (Fl K))) := do
  let x ← Run.lift (Outcome.get X j)
  let f ← eval P x
  Run.lift (Outcome.set F j f)

/-- `pop.set_xf(j, XNEW[best_idxs[j]], FNEW[best_idxs[j]])`, sga.cpp 282-284. -/
def putBest (v : Env K σ) (P : AProb K) (X F : List (List (Fl K))) (best : List Nat) (_ : Unit) (j : Nat) :
    Run (St K σ) Unit := do
  let i ← Run.lift (Outcome.get best j)
  let x ← Run.lift (Outcome.get X i)
  let f ← Run.lift (Outcome.get F i)
  onPop (Pop.setXF v.sq P.info j x f)

/-- The best of offspring and parents become the population, sga.cpp 272-284. -/
def reinsert (v : Env K σ) (P : AProb K) (NP : Nat) (X F : List (List (Fl K))) : Run (St K σ) Unit := do
  let s ← Run.get
  let X := X ++ s.pop.x
  let F := F ++ s.pop.f
  let best ← Run.lift (stdSort v.srt (objLess F) (List.range F.length))
  (List.range NP).foldlM (putBest v P X F best) ()

/-- Body of the main loop, sga.cpp 224-285. -/
def sgaGen [FloorRing K] (v : SgaEnv K σ) (P : AProb K) (A : Sga K) (NP : Nat) (_ : Nat) (_ : Unit) :
    Run (St K σ) (Unit × Bool) := do
  reSeed v.toEnv P
  let s ← Run.get
  let X ← onRng (sgaOffspring v P A s.pop.x s.pop.f)
  let F ← (List.range NP).foldlM (evalOne P X) s.pop.f
  reinsert v.toEnv P NP X F
  pure ((), false)

/-- `sga::evolve`, sga.cpp 180-287. -/
def sgaEvolve [FloorRing K] (v : SgaEnv K σ) (P : AProb K) (A : Sga K) (fuel : Nat) : Run (St K σ) Unit :=
  if P.info.nc ≠ 0 then Run.throw .invalidArgument
  else if P.info.nf ≠ 1 then Run.throw .invalidArgument
  else do
    let s ← Run.get
    if s.pop.id.length < 2 then Run.throw .invalidArgument
    else if A.paramS > s.pop.id.length then Run.throw .invalidArgument
    else if A.cross = .sbx ∧ s.pop.id.length % 2 ≠ 0 then Run.throw .invalidArgument
    else if A.gens = 0 then pure ()
    else do
      let _ ← genLoop (sgaGen v P A s.pop.id.length) A.gens fuel 1 ()
      pure ()

end Verif.Alg
