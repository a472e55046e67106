import Verif.Model.LinAlg

/-!
# Model of src/algorithms/xnes.cpp

The log and the screen output are not modelled. What the members `mean`, `A` and `sigma` are after an exception is not modelled.
Sizes do not overflow Eigen's index type. The constants 1e-6 and 0.6 are taken as these numbers, not as the nearest doubles.
-/

set_option autoImplicit false

namespace Verif.Alg

open Verif Prob

variable {K σ : Type} [Field K] [LinearOrder K]

/-- What the algorithm is run with, besides `Env`: the normal distribution, `std::log`, `std::exp` and the exponential of a matrix
(unsupported/Eigen/MatrixFunctions). -/
structure XnEnv (K σ : Type) extends Env K σ where
  d : Dist K σ
  lg : Fl K → Fl K
  ex : Fl K → Fl K
  mexp : {n : Nat} → Mat K n → Mat K n

/-- The parameters, include/pagmo/algorithms/xnes.hpp 247-255. -/
structure Xnes (K : Type) where
  gens : Nat
  etaMu : Fl K
  etaSigma : Fl K
  etaB : Fl K
  sigma0 : Fl K
  ftol : Fl K
  xtol : Fl K
  memory : Bool
  force : Bool
deriving DecidableEq

/-- A rate that the constructor refuses, xnes.cpp 58, 63, 68, 73. -/
def xnBadRate (r : Fl K) : Bool := (Fl.le r (.fin 0) || Fl.gt r (.fin 1)) && !Fl.eq r (.fin (-1))

/-- `xnes::xnes`, xnes.cpp 53-82, without the members `mean`, `A`, `sigma` (see `xnFresh`). -/
def xnCtor (gens : Nat) (etaMu etaSigma etaB sigma0 ftol xtol : Fl K) (memory force : Bool) : Outcome (Xnes K) :=
  if xnBadRate etaMu then .throws .invalidArgument
  else if xnBadRate etaSigma then .throws .invalidArgument
  else if xnBadRate etaB then .throws .invalidArgument
  else if xnBadRate sigma0 then .throws .invalidArgument
  else .ok ⟨gens, etaMu, etaSigma, etaB, sigma0, ftol, xtol, memory, force⟩

/-- `mean`, `A` and `sigma` for `n` variables. -/
structure XnVars (K : Type) (n : Nat) where
  mean : Vec K n
  A : Mat K n
  sigma : Fl K

/-- The members `mean`, `A` and `sigma`. `A` has as many rows and columns as `mean` has coefficients: this holds after the constructor
(xnes.cpp 79-81), and both are given a new size together (185, 192). -/
structure XnMem (K : Type) where
  n : Nat
  vars : XnVars K n

/-- The members after the constructor, xnes.cpp 78-81. -/
def xnFresh (A : Xnes K) : XnMem K := ⟨1, ⟨fun _ => .fin 0, laId 1, A.sigma0⟩⟩

/-- `common_default`, xnes.cpp 158. -/
def xnDefault (v : XnEnv K σ) (n : Nat) : Fl K :=
  let d : Fl K := .fin (v.g.ofInt n)
  v.op.div (v.op.mul (.fin (6 / 10)) (v.op.add (.fin 3) (v.lg d))) (v.op.mul d (v.sq d))

/-- `eta_mu`, xnes.cpp 154-157. -/
def xnMu (A : Xnes K) : Fl K := if Fl.eq A.etaMu (.fin (-1)) then .fin 1 else A.etaMu

/-- `eta_sigma` and `eta_b`, xnes.cpp 159-164. -/
def xnRate (v : XnEnv K σ) (n : Nat) (eta : Fl K) : Fl K := if Fl.eq eta (.fin (-1)) then xnDefault v n else eta

/-- `u[i]` after the first loop, xnes.cpp 168-170. -/
def xnRaw (v : XnEnv K σ) (lam i : Nat) : Fl K :=
  Fl.stdMax (.fin 0) (v.op.sub (v.lg (v.op.add (v.op.div (.fin (v.g.ofInt lam)) (.fin 2)) (.fin 1))) (v.lg (.fin (v.g.ofInt (i + 1 : Nat)))))

/-- `u`, xnes.cpp 166-177. -/
def xnUtil (v : XnEnv K σ) (lam : Nat) : List (Fl K) :=
  let u := (List.range lam).map (xnRaw v lam)
  let sum := u.foldl v.op.add (.fin 0)
  u.map (fun a => v.op.sub (v.op.div a sum) (v.op.div (.fin 1) (.fin (v.g.ofInt lam))))

/-- `mean`, `A` and `sigma` set from the population, xnes.cpp 181-196. -/
def xnReset (v : XnEnv K σ) (P : AProb K) (A : Xnes K) (p : Pop.State K) : Outcome (XnVars K P.info.nx) := do
  let sigma := if Fl.eq A.sigma0 (.fin (-1)) then .fin (1 / 2) else A.sigma0
  let lb ← vecOf P.info.nx P.lb
  let ub ← vecOf P.info.nx P.ub
  let i ← Pop.bestIdx v.srt v.sq P.info p.f p.tol
  let x ← Outcome.get p.x i
  let mean ← vecOf P.info.nx x
  pure ⟨mean, fun i j => if i = j then v.op.mul (Fl.stdMax (v.op.sub (ub j) (lb j)) (.fin (1 / 1000000))) sigma else .fin 0, sigma⟩

/-- `mean`, `A` and `sigma` before the main loop, xnes.cpp 178-197. -/
def xnInit (v : XnEnv K σ) (P : AProb K) (A : Xnes K) (p : Pop.State K) (m : XnMem K) : Outcome (XnVars K P.info.nx) :=
  if h : m.n = P.info.nx then
    if A.memory = false then xnReset v P A p else .ok (h ▸ m.vars)
  else xnReset v P A p

/-- A coefficient moved into the bounds, xnes.cpp 233-237. -/
def xnClamp (lo hi x : Fl K) : Fl K := if Fl.lt x lo then lo else if Fl.gt x hi then hi else x

/-- The new chromosome, xnes.cpp 227-242. -/
def xnPoint (v : XnEnv K σ) (P : AProb K) (A : Xnes K) (b : XnVars K P.info.nx) (z : Vec K P.info.nx) : Outcome (List (Fl K)) :=
  let x : Vec K P.info.nx := fun j => v.op.add (b.mean j) (laApply v.op b.A z j)
  if A.force then do
    let lb ← vecOf P.info.nx P.lb
    let ub ← vecOf P.info.nx P.ub
    pure (List.ofFn (fun j => xnClamp (lb j) (ub j) (x j)))
  else pure (List.ofFn x)

/-- `pop.set_x(i, x)`, src/population.cpp 539-542. -/
def setX (v : Env K σ) (P : AProb K) (i : Nat) (x : List (Fl K)) : Run (St K σ) Unit := do
  let f ← eval P x
  onPop (Pop.setXF v.sq P.info i x f)

/-- Body of the loop over the individuals, xnes.cpp 222-244; the state is `z` up to here. -/
def xnSample (v : XnEnv K σ) (P : AProb K) (A : Xnes K) (b : XnVars K P.info.nx) (zs : List (Vec K P.info.nx)) (i : Nat) :
    Run (St K σ) (List (Vec K P.info.nx)) := do
  let z ← onRng (drawVec v.d P.info.nx)
  let x ← Run.lift (xnPoint v P A b z)
  setX v.toEnv P i x
  pure (zs ++ [z])

/-- `pop.get_problem().set_seed(...)` for a stochastic problem, xnes.cpp 216-220, cmaes.cpp 313-317. `set_seed` changes what the fitness
function returns from now on: `P.fit` depends on the calls made so far, so it stands for the functions of all the seeds drawn. -/
def newSeed (v : Env K σ) (P : AProb K) : Run (St K σ) Unit :=
  if P.info.stochastic then do
    let _ ← onRng (v.g.drawNat 0 (2 ^ 32 - 1))
    pure ()
  else pure ()

/-- `delta_f`, xnes.cpp 256-258, cmaes.cpp 265-267. -/
def flatness (v : Env K σ) (P : AProb K) (p : Pop.State K) : Outcome (Fl K) := do
  let i ← Pop.bestIdx v.srt v.sq P.info p.f p.tol
  let j ← Pop.worstIdx v.srt v.sq P.info p.f p.tol
  let fb ← Outcome.get p.f i
  let fw ← Outcome.get p.f j
  let a ← Outcome.get fb 0
  let b ← Outcome.get fw 0
  pure (Fl.abs (v.op.sub a b))

/-- Comparator, xnes.cpp 293-295. Fitnesses are not empty and the indices in range. -/
def xnLess (fs : List (List (Fl K))) (a b : Nat) : Bool :=
  match fs[a]?, fs[b]? with
  | some (x :: _), some (y :: _) => Fl.lt x y
  | _, _ => false

/-- `d_center`, xnes.cpp 298-301; the list holds the pairs of `u[i]` and `z[s_idx[i]]`. -/
def xnCenter (op : Fl.Ops K) {n : Nat} : List (Fl K × Vec K n) → Vec K n
  | [] => fun _ => .fin 0
  | p :: ps => ps.foldl (fun c q i => op.add (c i) (op.mul q.1 (q.2 i))) (fun i => op.mul p.1 (p.2 i))

/-- `u[i] * (z * z.transpose() - I)`, xnes.cpp 302, 304. -/
def xnOuter (op : Fl.Ops K) {n : Nat} (p : Fl K × Vec K n) : Mat K n :=
  fun i j => op.mul p.1 (op.sub (op.mul (p.2 i) (p.2 j)) (laId n i j))

/-- `cov_grad`, xnes.cpp 302-305. -/
def xnCov (op : Fl.Ops K) {n : Nat} : List (Fl K × Vec K n) → Mat K n
  | [] => fun _ _ => .fin 0
  | p :: ps => ps.foldl (fun c q i j => op.add (c i j) (xnOuter op q i j)) (xnOuter op p)

/-- `mean`, `A` and `sigma` after a generation, xnes.cpp 297-311. -/
def xnUpdate (v : XnEnv K σ) (A : Xnes K) {n : Nat} (b : XnVars K n) (uz : List (Fl K × Vec K n)) : XnVars K n :=
  let op := v.op
  let d : Fl K := .fin (v.g.ofInt n)
  let center := xnCenter op uz
  let cov := xnCov op uz
  let tr := laTrace op cov
  let cov' : Mat K n := fun i j => op.sub (cov i j) (op.mul (op.div tr d) (laId n i j))
  let dA : Mat K n := fun i j => op.mul (.fin (1 / 2)) (op.add (op.mul (op.div (op.mul (xnRate v n A.etaSigma) tr) d) (laId n i j))
    (op.mul (xnRate v n A.etaB) (cov' i j)))
  ⟨fun i => op.add (b.mean i) (laApply op (fun i j => op.mul (xnMu A) (b.A i j)) center i),
   laMul op b.A (v.mexp dA),
   op.mul b.sigma (v.ex (op.div (op.mul (op.div (xnRate v n A.etaSigma) (.fin 2)) tr) d))⟩

/-- Body of the main loop, xnes.cpp 214-312. -/
def xnGen (v : XnEnv K σ) (P : AProb K) (A : Xnes K) (lam : Nat) (_ : Nat) (b : XnVars K P.info.nx) :
    Run (St K σ) (XnVars K P.info.nx × Bool) := do
  newSeed v.toEnv P
  let zs ← (List.range lam).foldlM (xnSample v P A b) []
  let z0 ← Run.lift (Outcome.get zs 0)
  if Fl.lt (laNorm v.op v.sq (laApply v.op b.A z0)) A.xtol then pure (b, true)
  else do
    let s ← Run.get
    let df ← Run.lift (flatness v.toEnv P s.pop)
    if Fl.lt df A.ftol then pure (b, true)
    else do
      let idx ← Run.lift (stdSort v.srt (xnLess s.pop.f) (List.range lam))
      let zo ← Run.lift (idx.mapM (fun i => Outcome.get zs i))
      pure (xnUpdate v A b ((xnUtil v lam).zip zo), false)

/-- `xnes::evolve`, xnes.cpp 96-317. `m` are the members that `evolve` changes; the result is their new value. -/
def xnEvolve (v : XnEnv K σ) (P : AProb K) (A : Xnes K) (fuel : Nat) (m : XnMem K) : Run (St K σ) (XnMem K) := do
  let s ← Run.get
  if P.info.nc ≠ 0 then Run.throw .invalidArgument
  else if P.info.nf ≠ 1 then Run.throw .invalidArgument
  else if s.pop.id.length < 4 then Run.throw .invalidArgument
  else if P.lb.any (fun a => !a.isFinite) then Run.throw .invalidArgument
  else if P.ub.any (fun a => !a.isFinite) then Run.throw .invalidArgument
  else if A.gens = 0 then pure m
  else do
    let b ← Run.lift (xnInit v P A s.pop m)
    let b ← genLoop (xnGen v P A s.pop.id.length) A.gens fuel 1 b
    pure ⟨P.info.nx, b⟩

end Verif.Alg
