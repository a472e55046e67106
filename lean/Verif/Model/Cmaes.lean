import Verif.Model.Xnes
import Verif.Model.Nsga2

/-!
# Model of src/algorithms/cmaes.cpp

The log and the screen output are not modelled. What the members are after an exception is not modelled. The counters `counteval` and
`eigeneval` do not overflow. The decimal constants are taken as these numbers, not as the nearest doubles. `newpop` is overwritten before
it is read, so only its size matters between calls; `variation` is not used.
-/

set_option autoImplicit false

namespace Verif.Alg

open Verif Prob

variable {K σ : Type} [Field K] [LinearOrder K]

/-- What the algorithm is run with, besides `Env`: the normal distribution, `std::log`, `std::exp`, `std::pow`, and
`Eigen::SelfAdjointEigenSolver` (eigenvectors and eigenvalues, or nothing if it fails). -/
structure CmEnv (K σ : Type) extends Env K σ where
  d : Dist K σ
  lg : Fl K → Fl K
  ex : Fl K → Fl K
  pw : Fl K → Fl K → Fl K
  eig : {n : Nat} → Mat K n → Option (Mat K n × Vec K n)

/-- The parameters, include/pagmo/algorithms/cmaes.hpp 241-250. -/
structure Cmaes (K : Type) where
  gens : Nat
  cc : Fl K
  cs : Fl K
  c1 : Fl K
  cmu : Fl K
  sigma0 : Fl K
  ftol : Fl K
  xtol : Fl K
  memory : Bool
  force : Bool
deriving DecidableEq

/-- A rate that the constructor refuses, cmaes.cpp 63-82. -/
def cmBadRate (r : Fl K) : Bool := (Fl.lt r (.fin 0) || Fl.gt r (.fin 1)) && !Fl.eq r (.fin (-1))

/-- `cmaes::cmaes`, cmaes.cpp 58-97, without the members that `evolve` changes (see `cmFresh`). -/
def cmCtor (gens : Nat) (cc cs c1 cmu sigma0 ftol xtol : Fl K) (memory force : Bool) : Outcome (Cmaes K) :=
  if cmBadRate cc then .throws .invalidArgument
  else if cmBadRate cs then .throws .invalidArgument
  else if cmBadRate c1 then .throws .invalidArgument
  else if cmBadRate cmu then .throws .invalidArgument
  else .ok ⟨gens, cc, cs, c1, cmu, sigma0, ftol, xtol, memory, force⟩

/-- The members that are adapted, for `n` variables. `isC` is `invsqrtC`. -/
structure CmVars (K : Type) (n : Nat) where
  sigma : Fl K
  mean : Vec K n
  B : Mat K n
  D : Mat K n
  C : Mat K n
  isC : Mat K n
  pc : Vec K n
  ps : Vec K n
  counteval : Nat
  eigeneval : Nat

/-- The members, with the size of `newpop`. All vectors and matrices, and the vectors in `newpop`, have the same size: this holds after
the constructor (cmaes.cpp 85-96, where `newpop` is empty), and they are all given a new size together (202-231). -/
structure CmMem (K : Type) where
  n : Nat
  lam : Nat
  vars : CmVars K n

/-- The members after the constructor, cmaes.cpp 84-96. -/
def cmFresh (A : Cmaes K) : CmMem K := ⟨1, 0, ⟨A.sigma0, fun _ => .fin 0, laId 1, laId 1, laId 1, laId 1, fun _ => .fin 0, fun _ => .fin 0, 0, 0⟩⟩

/-- `weights` before they are divided by their sum, cmaes.cpp 165-168. -/
def cmRaw (v : CmEnv K σ) (mu i : Nat) : Fl K :=
  v.op.sub (v.lg (v.op.add (.fin (v.g.ofInt mu)) (.fin (1 / 2)))) (v.lg (v.op.add (.fin (v.g.ofInt i)) (.fin 1)))

/-- `weights`, cmaes.cpp 165-169. -/
def cmWeights (v : CmEnv K σ) (mu : Nat) : List (Fl K) :=
  let w := (List.range mu).map (cmRaw v mu)
  let sum := w.foldl v.op.add v.op.zero
  w.map (fun a => v.op.div a sum)

/-- `mueff`, cmaes.cpp 170. -/
def cmMueff (v : CmEnv K σ) (w : List (Fl K)) : Fl K := v.op.div (.fin 1) (w.foldl (fun s a => v.op.add s (v.op.mul a a)) v.op.zero)

/-- The coefficients for the adaptation. -/
structure CmCoef (K : Type) where
  mueff : Fl K
  cc : Fl K
  cs : Fl K
  c1 : Fl K
  cmu : Fl K
  damps : Fl K
  chiN : Fl K

/-- `cc`, cmaes.cpp 173-177. -/
def cmCc (v : CmEnv K σ) (A : Cmaes K) (N mueff : Fl K) : Fl K :=
  if Fl.eq A.cc (.fin (-1)) then
    v.op.div (v.op.add (.fin 4) (v.op.div mueff N)) (v.op.add (v.op.add N (.fin 4)) (v.op.div (v.op.mul (.fin 2) mueff) N))
  else A.cc

/-- `cs`, cmaes.cpp 178-180. -/
def cmCs (v : CmEnv K σ) (A : Cmaes K) (N mueff : Fl K) : Fl K :=
  if Fl.eq A.cs (.fin (-1)) then v.op.div (v.op.add mueff (.fin 2)) (v.op.add (v.op.add N mueff) (.fin 5)) else A.cs

/-- `c1`, cmaes.cpp 181-183. -/
def cmC1 (v : CmEnv K σ) (A : Cmaes K) (N mueff : Fl K) : Fl K :=
  if Fl.eq A.c1 (.fin (-1)) then
    v.op.div (.fin 2) (v.op.add (v.op.mul (v.op.add N (.fin (13 / 10))) (v.op.add N (.fin (13 / 10)))) mueff)
  else A.c1

/-- `cmu`, cmaes.cpp 184-186. -/
def cmCmu (v : CmEnv K σ) (A : Cmaes K) (N mueff : Fl K) : Fl K :=
  if Fl.eq A.cmu (.fin (-1)) then
    v.op.div (v.op.mul (.fin 2) (v.op.add (v.op.sub mueff (.fin 2)) (v.op.div (.fin 1) mueff)))
      (v.op.add (v.op.mul (v.op.add N (.fin 2)) (v.op.add N (.fin 2))) mueff)
  else A.cmu

/-- `damps`, cmaes.cpp 188-189. -/
def cmDamps (v : CmEnv K σ) (N mueff cs : Fl K) : Fl K :=
  v.op.add (v.op.add (.fin 1) (v.op.mul (.fin 2)
    (Fl.stdMax (.fin 0) (v.op.sub (v.sq (v.op.div (v.op.sub mueff (.fin 1)) (v.op.add N (.fin 1)))) (.fin 1))))) cs

/-- `chiN`, cmaes.cpp 190-191. -/
def cmChiN (v : CmEnv K σ) (N : Fl K) : Fl K :=
  v.op.mul (v.sq N) (v.op.add (v.op.sub (.fin 1) (v.op.div (.fin 1) (v.op.mul (.fin 4) N)))
    (v.op.div (.fin 1) (v.op.mul (v.op.mul (.fin 21) N) N)))

/-- The coefficients, cmaes.cpp 170-191. -/
def cmCoef (v : CmEnv K σ) (A : Cmaes K) (n lam : Nat) : CmCoef K :=
  let N : Fl K := .fin (v.g.ofInt n)
  let mueff := cmMueff v (cmWeights v (lam / 2))
  let cs := cmCs v A N mueff
  ⟨mueff, cmCc v A N mueff, cs, cmC1 v A N mueff, cmCmu v A N mueff, cmDamps v N mueff cs, cmChiN v N⟩

/-- The members set from the population, cmaes.cpp 203-231. -/
def cmReset (v : CmEnv K σ) (P : AProb K) (A : Cmaes K) (p : Pop.State K) : Outcome (CmVars K P.info.nx) := do
  let i ← Pop.bestIdx v.srt v.sq P.info p.f p.tol
  let x ← Outcome.get p.x i
  let mean ← vecOf P.info.nx x
  let lb ← vecOf P.info.nx P.lb
  let ub ← vecOf P.info.nx P.ub
  let D : Mat K P.info.nx := fun i j => if i = j then Fl.stdMax (v.op.sub (ub j) (lb j)) (.fin (1 / 1000000)) else .fin 0
  pure ⟨A.sigma0, mean, laId _, D, laMul v.op D D, fun i j => if i = j then v.op.div (.fin 1) (D j j) else .fin 0,
    fun _ => .fin 0, fun _ => .fin 0, 0, 0⟩

/-- The members before the main loop, cmaes.cpp 201-231. `newpop[0]` is read only if `newpop` is not empty, because there are at
least five individuals. -/
def cmInit (v : CmEnv K σ) (P : AProb K) (A : Cmaes K) (p : Pop.State K) (m : CmMem K) : Outcome (CmVars K P.info.nx) :=
  if m.lam ≠ p.id.length then cmReset v P A p
  else if h : m.n = P.info.nx then
    if A.memory = false then cmReset v P A p else .ok (h ▸ m.vars)
  else cmReset v P A p

/-- `sigma * B * D * tmp`, cmaes.cpp 252, 258. -/
def cmMove (op : Fl.Ops K) {n : Nat} (b : CmVars K n) (z : Vec K n) : Vec K n :=
  laApply op (laMul op (fun i j => op.mul b.sigma (b.B i j)) b.D) z

/-- `newpop[i]` when it is evaluated, cmaes.cpp 252 and 301-311. -/
def cmPoint (v : CmEnv K σ) (P : AProb K) (A : Cmaes K) (b : CmVars K P.info.nx) (z : Vec K P.info.nx) : Outcome (List (Fl K)) :=
  let x : Vec K P.info.nx := fun j => v.op.add (b.mean j) (cmMove v.op b z j)
  if A.force then do
    let lb ← vecOf P.info.nx P.lb
    let ub ← vecOf P.info.nx P.ub
    pure (List.ofFn (fun j => xnClamp (lb j) (ub j) (x j)))
  else pure (List.ofFn x)

/-- The vectors of normal numbers for all individuals, cmaes.cpp 246-251. -/
def cmDraw (v : CmEnv K σ) (n : Nat) (zs : List (Vec K n)) (_ : Nat) : Run (St K σ) (List (Vec K n)) := do
  let z ← onRng (drawVec v.d n)
  pure (zs ++ [z])

/-- `pop.set_xf(i, newpop[i], {fitnesses[i]})`, cmaes.cpp 341-346. -/
def cmStore (v : CmEnv K σ) (P : AProb K) (xs fs : List (List (Fl K))) (_ : Unit) (i : Nat) : Run (St K σ) Unit := do
  let x ← Run.lift (Outcome.get xs i)
  let f ← Run.lift (Outcome.get fs i)
  onPop (Pop.setXF v.sq P.info i x f)

/-- `pop.set_x(i, newpop[i])`, cmaes.cpp 319-327. -/
def cmSet (v : CmEnv K σ) (P : AProb K) (xs : List (List (Fl K))) (_ : Unit) (i : Nat) : Run (St K σ) Unit := do
  let x ← Run.lift (Outcome.get xs i)
  setX v.toEnv P i x

/-- The evaluation of the new points, cmaes.cpp 318-347. `evalBatch` is described in Verif/Model/Nsga2.lean. -/
def cmEval (v : CmEnv K σ) (P : AProb K) (bfe : Option (Batch K)) (lam : Nat) (xs : List (List (Fl K))) : Run (St K σ) Unit :=
  match bfe with
  | none => (List.range lam).foldlM (cmSet v P xs) ()
  | some b => do
    let fs ← evalBatch P b xs
    (List.range lam).foldlM (cmStore v P xs fs) ()

/-- Comparator, cmaes.cpp 352-354. Fitnesses are not empty and the indices in range. -/
def cmLess (fs : List (List (Fl K))) (a b : Nat) : Bool :=
  match fs[a]?, fs[b]? with
  | some (x :: _), some (y :: _) => Fl.lessThanF x y
  | _, _ => false

/-- The new `mean`, cmaes.cpp 363-366; the list holds the pairs of `weights(i)` and `elite[i]`. -/
def cmMean (op : Fl.Ops K) {n : Nat} : List (Fl K × Vec K n) → Vec K n
  | [] => fun _ => .fin 0
  | p :: ps => ps.foldl (fun c q i => op.add (c i) (op.mul (q.2 i) q.1)) (fun i => op.mul (p.2 i) p.1)

/-- `(elite[i] - meanold) * (elite[i] - meanold).transpose() * weights(i)`, cmaes.cpp 376, 378. -/
def cmOuter (op : Fl.Ops K) {n : Nat} (old : Vec K n) (p : Fl K × Vec K n) : Mat K n :=
  fun i j => op.mul (op.mul (op.sub (p.2 i) (old i)) (op.sub (p.2 j) (old j))) p.1

/-- `C` before it is divided, cmaes.cpp 376-379. -/
def cmCov (op : Fl.Ops K) {n : Nat} (old : Vec K n) : List (Fl K × Vec K n) → Mat K n
  | [] => fun _ _ => .fin 0
  | p :: ps => ps.foldl (fun c q i j => op.add (c i j) (cmOuter op old q i j)) (cmOuter op old p)

/-- The new `ps`, cmaes.cpp 368; `dm` is `mean - meanold`. -/
def cmPs (v : CmEnv K σ) (co : CmCoef K) {n : Nat} (b : CmVars K n) (dm : Vec K n) : Vec K n :=
  let r := v.sq (v.op.mul (v.op.mul co.cs (v.op.sub (.fin 2) co.cs)) co.mueff)
  fun i => v.op.add (v.op.mul (v.op.sub (.fin 1) co.cs) (b.ps i))
    (v.op.div (laApply v.op (fun i j => v.op.mul r (b.isC i j)) dm i) b.sigma)

/-- `hsig`, cmaes.cpp 369-372; `count` is the new `counteval`. -/
def cmHsig (v : CmEnv K σ) (co : CmCoef K) {n : Nat} (lam count : Nat) (ps : Vec K n) : Bool :=
  let N : Fl K := .fin (v.g.ofInt n)
  Fl.lt (v.op.div (v.op.div (laSum v.op (fun j => v.op.mul (ps j) (ps j))) N)
      (v.op.sub (.fin 1) (v.pw (v.op.sub (.fin 1) co.cs) (v.op.div (v.op.mul (.fin 2) (.fin (v.g.ofInt count))) (.fin (v.g.ofInt lam))))))
    (v.op.add (.fin 2) (v.op.div (.fin 4) (v.op.add N (.fin 1))))

/-- The new `pc`, cmaes.cpp 373. -/
def cmPc (v : CmEnv K σ) (co : CmCoef K) {n : Nat} (b : CmVars K n) (dm : Vec K n) (hsig : Fl K) : Vec K n :=
  let r := v.op.mul hsig (v.sq (v.op.mul (v.op.mul co.cc (v.op.sub (.fin 2) co.cc)) co.mueff))
  fun i => v.op.add (v.op.mul (v.op.sub (.fin 1) co.cc) (b.pc i)) (v.op.div (v.op.mul r (dm i)) b.sigma)

/-- The new `C`, cmaes.cpp 375-381. -/
def cmC (v : CmEnv K σ) (co : CmCoef K) {n : Nat} (b : CmVars K n) (we : List (Fl K × Vec K n)) (pc : Vec K n) (hsig : Fl K) : Mat K n :=
  let op := v.op
  let ss := op.mul b.sigma b.sigma
  let cov := cmCov op b.mean we
  fun i j => op.add (op.add (op.mul (op.sub (op.sub (.fin 1) co.c1) co.cmu) (b.C i j)) (op.mul co.cmu (op.div (cov i j) ss)))
    (op.mul co.c1 (op.add (op.mul (pc i) (pc j))
      (op.mul (op.mul (op.mul (op.sub (.fin 1) hsig) co.cc) (op.sub (.fin 2) co.cc)) (b.C i j))))

/-- The new `sigma`, cmaes.cpp 383. -/
def cmSigma (v : CmEnv K σ) (co : CmCoef K) {n : Nat} (sigma : Fl K) (ps : Vec K n) : Fl K :=
  v.op.mul sigma (v.ex (Fl.stdMin (.fin (6 / 10))
    (v.op.mul (v.op.div co.cs co.damps) (v.op.sub (v.op.div (laNorm v.op v.sq ps) co.chiN) (.fin 1)))))

/-- Whether `C` is decomposed, cmaes.cpp 385-386. -/
def cmDue (v : CmEnv K σ) (co : CmCoef K) (n lam count last : Nat) : Bool :=
  Fl.gt (.fin (v.g.ofInt (count - last : Nat)))
    (v.op.div (v.op.div (v.op.div (.fin (v.g.ofInt lam)) (v.op.add co.c1 co.cmu)) (.fin (v.g.ofInt n))) (.fin 10))

/-- The standard deviations from the eigenvalues, cmaes.cpp 394. -/
def cmDev (v : CmEnv K σ) {n : Nat} (l : Vec K n) : Vec K n := fun j => v.sq (Fl.stdMax (.fin (1 / 10 ^ 20)) (l j))

/-- The decomposition of `C`, cmaes.cpp 387-400. -/
def cmSplit (v : CmEnv K σ) {n : Nat} (b : CmVars K n) : CmVars K n :=
  let op := v.op
  let C : Mat K n := fun i j => op.div (op.add (b.C i j) (b.C j i)) (.fin 2)
  match v.eig C with
  | none => { b with C := C, eigeneval := b.counteval }
  | some (B, l) =>
    let s := cmDev v l
    { b with C := C, eigeneval := b.counteval, B := B, D := fun i j => if i = j then s j else .fin 0,
             isC := laMul op (laMul op B (fun i j => if i = j then op.div (.fin 1) (s j) else .fin 0)) (fun i j => B j i) }

/-- The members after a generation, cmaes.cpp 348 and 361-401. -/
def cmUpdate (v : CmEnv K σ) (co : CmCoef K) {n : Nat} (lam : Nat) (b : CmVars K n) (we : List (Fl K × Vec K n)) : CmVars K n :=
  let count := b.counteval + lam
  let mean := cmMean v.op we
  let dm : Vec K n := fun i => v.op.sub (mean i) (b.mean i)
  let ps := cmPs v co b dm
  let hsig : Fl K := if cmHsig v co lam count ps then .fin 1 else .fin 0
  let pc := cmPc v co b dm hsig
  let b' : CmVars K n := { b with sigma := cmSigma v co b.sigma ps, mean := mean, C := cmC v co b we pc hsig, pc := pc, ps := ps, counteval := count }
  if cmDue v co n lam count b.eigeneval then cmSplit v b' else b'

/-- Body of the main loop, cmaes.cpp 244-402. -/
def cmGen (v : CmEnv K σ) (P : AProb K) (A : Cmaes K) (bfe : Option (Batch K)) (lam : Nat) (_ : Nat) (b : CmVars K P.info.nx) :
    Run (St K σ) (CmVars K P.info.nx × Bool) := do
  let zs ← (List.range lam).foldlM (cmDraw v P.info.nx) []
  let z ← Run.lift (Outcome.get zs (lam - 1))
  if Fl.lt (laNorm v.op v.sq (cmMove v.op b z)) A.xtol then pure (b, true)
  else do
    let s ← Run.get
    let df ← Run.lift (flatness v.toEnv P s.pop)
    if Fl.lt df A.ftol then pure (b, true)
    else do
      let xs ← Run.lift (zs.mapM (cmPoint v P A b))
      newSeed v.toEnv P
      cmEval v P bfe lam xs
      let s ← Run.get
      let idx ← Run.lift (stdSort v.srt (cmLess s.pop.f) (List.range lam))
      let elite ← Run.lift ((idx.take (lam / 2)).mapM (fun i => do
        let x ← Outcome.get s.pop.x i
        vecOf P.info.nx x))
      pure (cmUpdate v (cmCoef v A P.info.nx lam) lam b ((cmWeights v (lam / 2)).zip elite), false)

/-- `cmaes::evolve`, cmaes.cpp 111-406. `m` are the members that `evolve` changes; the result is their new value. -/
def cmEvolve (v : CmEnv K σ) (P : AProb K) (A : Cmaes K) (bfe : Option (Batch K)) (fuel : Nat) (m : CmMem K) : Run (St K σ) (CmMem K) := do
  let s ← Run.get
  if P.info.nc ≠ 0 then Run.throw .invalidArgument
  else if P.info.nf ≠ 1 then Run.throw .invalidArgument
  else if s.pop.id.length < 5 then Run.throw .invalidArgument
  else if P.lb.any (fun a => !a.isFinite) then Run.throw .invalidArgument
  else if P.ub.any (fun a => !a.isFinite) then Run.throw .invalidArgument
  else if A.gens = 0 then pure m
  else do
    let b ← Run.lift (cmInit v P A s.pop m)
    let b ← genLoop (cmGen v P A bfe s.pop.id.length) A.gens fuel 1 b
    pure ⟨P.info.nx, s.pop.id.length, b⟩

end Verif.Alg
