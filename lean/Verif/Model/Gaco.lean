import Verif.Model.Xnes
import Verif.Model.Nsga2

/-!
# Model of src/algorithms/gaco.cpp

The log and the screen output are not modelled (nor `m_fevals`, which is used only there). What the members are after an exception thrown
in the main loop is not modelled. `std::pow(x, 2)` is modelled as `x * x`. The decimal constants are taken as these numbers, not as the
nearest doubles. A row of the solution archive is a vector that holds the penalty, the chromosome and the fitness, as in the code;
reading past its end is undefined.
-/

set_option autoImplicit false

namespace Verif.Alg

open Verif Prob

variable {K σ : Type} [Field K] [LinearOrder K]

/-- What the algorithm is run with, besides `Env`: the normal distribution, `std::exp`, `std::round` and the constant pi. -/
structure GaEnv (K σ : Type) extends Env K σ where
  d : Dist K σ
  ex : Fl K → Fl K
  rd : Fl K → Fl K
  pi : K

/-- The parameters, include/pagmo/algorithms/gaco.hpp 242-264. -/
structure Gaco (K : Type) where
  gens : Nat
  ker : Nat
  acc : Fl K
  threshold : Nat
  nGenMark : Nat
  impstop : Nat
  evalstop : Nat
  focus : Fl K
  memory : Bool
deriving DecidableEq

/-- The members that `evolve` changes, gaco.hpp 248-262. -/
structure GaMem (K : Type) where
  oracle : Fl K
  q : Fl K
  counter : Nat
  arch : List (List (Fl K))
  nEval : Nat
  nImp : Nat
  mark : Nat
deriving DecidableEq

/-- The constructor, gaco.cpp 60-92; the members after it. -/
def gaCtor (gen ker : Nat) (q oracle acc : Fl K) (threshold nGenMark impstop evalstop : Nat) (focus : Fl K) (memory : Bool) :
    Outcome (Gaco K × GaMem K) :=
  if Fl.lt acc (.fin 0) then .throws .invalidArgument
  else if Fl.lt focus (.fin 0) then .throws .invalidArgument
  else if (threshold < 1 ∨ threshold > gen) ∧ gen ≠ 0 ∧ memory = false then .throws .invalidArgument
  else if threshold < 1 ∧ gen ≠ 0 ∧ memory = true then .throws .invalidArgument
  else if Fl.lt q (.fin 0) then .throws .invalidArgument
  else if ker < 2 then .throws .invalidArgument
  else .ok (⟨gen, ker, acc, threshold, nGenMark, impstop, evalstop, focus, memory⟩, ⟨oracle, q, 0, [], 1, 1, 1⟩)

/-- `n` entries of a row from number `i` on; undefined if there are fewer. -/
def gaSlice (r : List (Fl K)) (i n : Nat) : Outcome (List (Fl K)) := if i + n ≤ r.length then .ok ((r.drop i).take n) else .ub

/-! ### Penalties -/

/-- The norm of the violations, gaco.cpp 516-521 and 357-367. -/
def gaViol (v : GaEnv K σ) (P : AProb K) (tol f : List (Fl K)) : Outcome (Fl K) := do
  let e ← Con.testCons v.sq true ((f.drop P.info.nobj).take P.info.nec) tol
  let i ← Con.testCons v.sq false (f.drop (P.info.nobj + P.info.nec)) (tol.drop P.info.nec)
  pure (v.sq (v.op.add (v.op.mul e.2 e.2) (v.op.mul i.2 i.2)))

/-- `alpha`, gaco.cpp 529-541 and 375-386. -/
def gaAlpha (v : GaEnv K σ) (fit oracle diff res : Fl K) : Fl K :=
  let op := v.op
  let s3 := op.mul (.fin 6) (v.sq (.fin 3))
  if Fl.gt fit oracle && Fl.lt res (op.div diff (.fin 3)) then
    op.div (op.sub (op.div (op.mul diff (op.sub s3 (.fin 2))) s3) res) (op.sub diff res)
  else if Fl.gt fit oracle && Fl.ge res (op.div diff (.fin 3)) && Fl.le res diff then
    op.sub (.fin 1) (op.div (.fin 1) (op.mul (.fin 2) (v.sq (op.div diff res))))
  else if Fl.gt fit oracle && Fl.gt res diff then op.mul (.fin (1 / 2)) (v.sq (op.div diff res))
  else .fin 0

/-- The penalty, gaco.cpp 529-549 and 375-394; nothing if neither of the two cases applies. -/
def gaPen (v : GaEnv K σ) (fit oracle res : Fl K) : Option (Fl K) :=
  let diff := Fl.abs (v.op.sub fit oracle)
  let alpha := gaAlpha v fit oracle diff res
  if Fl.gt fit oracle || Fl.gt res (.fin 0) then some (v.op.add (v.op.mul alpha diff) (v.op.mul (v.op.sub (.fin 1) alpha) res))
  else if Fl.le fit oracle && Fl.eq res (.fin 0) then some (Fl.neg diff)
  else none

/-- `penalty_computation`, gaco.cpp 506-552. -/
def gaPenalty (v : GaEnv K σ) (P : AProb K) (tol : List (Fl K)) (oracle : Fl K) (f : List (Fl K)) : Outcome (Fl K) := do
  let res ← if P.info.nic ≠ 0 ∨ P.info.nec ≠ 0 then gaViol v P tol f else pure (.fin 0)
  let fit ← Outcome.get f 0
  pure ((gaPen v fit oracle res).getD (.fin 0))

/-- The comparators, gaco.cpp 213-215 and 609-611; the indices are in range. -/
def gaLess (ps : List (Fl K)) (a b : Nat) : Bool := Fl.lessThanF (ps.getD a .nan) (ps.getD b .nan)

/-! ### The solution archive -/

/-- A row made from individual `j` of the population, with penalty `p`: gaco.cpp 226-232, and 596-598. -/
def gaRow (P : AProb K) (xs fs : List (List (Fl K))) (p : Fl K) (j : Nat) : Outcome (List (Fl K)) := do
  let x ← Outcome.get xs j
  let f ← Outcome.get fs j
  let x ← gaSlice x 0 P.info.nx
  let f ← gaSlice f 0 P.info.nf
  pure (p :: (x ++ f))

/-- The rows of the best individuals, best first: gaco.cpp 225-233, and 595-598. -/
def gaRows (P : AProb K) (xs fs : List (List (Fl K))) (ps : List (Fl K)) (sl : List Nat) (n : Nat) : Outcome (List (List (Fl K))) :=
  (List.range n).mapM (fun i => do
    let j ← Outcome.get sl i
    let p ← Outcome.get ps j
    gaRow P xs fs p j)

/-- Body of the loop that leaves out penalties which are too close, gaco.cpp 628-635; the state is `count` and `new_sort_list`. -/
def gaKeepStep (op : Fl.Ops K) (acc : Fl K) (tp : List (Fl K)) (slp : List Nat) (c : Nat × List Nat) (j : Nat) : Outcome (Nat × List Nat) := do
  let a ← Outcome.get slp j
  let pa ← Outcome.get tp a
  let b ← Outcome.get slp c.1
  let pb ← Outcome.get tp b
  if Fl.lt (Fl.abs (op.sub pa pb)) acc then pure c else pure (c.1 + 1, c.2 ++ [j])

/-- `new_sort_list`, gaco.cpp 614-635. -/
def gaKeep (op : Fl.Ops K) (ker : Nat) (acc : Fl K) (tp : List (Fl K)) (slp : List Nat) : Outcome (List Nat) := do
  let a ← Outcome.get slp 0
  let c ← (List.range' 1 (tp.length - 1)).foldlM (gaKeepStep op acc tp slp) (if a < ker then 0 else 1, [0])
  pure c.2

/-- Body of the loop that fills `temporary_archive`, gaco.cpp 636-657: the first `w` entries of the row are written. `cands` are the rows of
the population followed by those of the archive. -/
def gaPlace (w : Nat) (cands : List (List (Fl K))) (slp nsl : List Nat) (t : List (List (Fl K))) (ii : Nat) : Outcome (List (List (Fl K))) := do
  let a ← Outcome.get nsl ii
  let b ← Outcome.get slp a
  let src ← Outcome.get cands b
  let dst ← Outcome.get t ii
  let s ← gaSlice src 0 w
  let d ← gaSlice dst w (dst.length - w)
  if dst.length < w then .ub else Outcome.set t ii (s ++ d)

/-- The new archive, gaco.cpp 595-662. The write to its first row in 616-622 is repeated by the loop (`new_sort_list` begins with 0) and is
left out. -/
def gaMerge (v : GaEnv K σ) (P : AProb K) (A : Gaco K) (xs fs : List (List (Fl K))) (ps : List (Fl K)) (sl : List Nat)
    (arch : List (List (Fl K))) : Outcome (List (List (Fl K))) := do
  let news ← gaRows P xs fs ps sl A.ker
  let np ← news.mapM (fun r => Outcome.get r 0)
  let old ← (List.range A.ker).mapM (Outcome.get arch)
  let op ← old.mapM (fun r => Outcome.get r 0)
  let slp ← stdSort v.srt (gaLess (np ++ op)) (List.range (np ++ op).length)
  let nsl ← gaKeep v.op A.ker A.acc (np ++ op) slp
  (List.range (min A.ker nsl.length)).foldlM (gaPlace (1 + P.info.nx + P.info.nf) (news ++ old) slp nsl) arch

/-- The two counters at the end of `update_sol_archive`, gaco.cpp 666-671: the new `m_gen_mark`. -/
def gaMark (A : Gaco K) (m : GaMem K) : Nat :=
  let k := if m.nEval = 1 ∨ m.nEval > 2 then incU m.mark else m.mark
  if k > A.nGenMark then 1 else k

/-- `update_sol_archive`, gaco.cpp 566-672; the penalties sorted by value are those in the order of `sl` (equal values are interchangeable). -/
def gaUpdate (v : GaEnv K σ) (P : AProb K) (A : Gaco K) (xs fs : List (List (Fl K))) (ps : List (Fl K)) (sl : List Nat) (m : GaMem K)
    (arch : List (List (Fl K))) : Outcome (GaMem K × List (List (Fl K))) := do
  let r0 ← Outcome.get arch 0
  let _ ← gaSlice r0 (1 + P.info.nx) P.info.nf
  let j0 ← Outcome.get sl 0
  let p0 ← Outcome.get ps j0
  let rl ← Outcome.get arch (A.ker - 1)
  let pl ← Outcome.get rl 0
  if Fl.lt p0 pl then do
    let arch ← gaMerge v P A xs fs ps sl arch
    pure ({ m with nImp := 1, mark := gaMark A m }, arch)
  else pure ({ m with nImp := incU m.nImp, mark := gaMark A m }, arch)

/-- The archive of a generation, gaco.cpp 217-245, with `m_sol_archive`. -/
def gaArchive (v : GaEnv K σ) (P : AProb K) (A : Gaco K) (gen : Nat) (xs fs : List (List (Fl K))) (ps : List (Fl K)) (sl : List Nat) (m : GaMem K)
    (arch : List (List (Fl K))) : Outcome (GaMem K × List (List (Fl K))) := do
  let arch := if A.memory ∧ m.counter > 1 then m.arch else arch
  let r ← if gen = 1 ∧ m.counter < 2 then do
      let arch ← gaRows P xs fs ps sl A.ker
      pure (m, arch)
    else gaUpdate v P A xs fs ps sl m arch
  pure (if A.memory then { r.1 with arch := r.2 } else r.1, r.2)

/-! ### Pheromones -/

/-- `omega_new`, gaco.cpp 710-711 and 733-734, for `l = i + 1`. -/
def gaOmega (v : GaEnv K σ) (q : Fl K) (ker i : Nat) : Fl K :=
  let op := v.op
  let k : Fl K := .fin (v.g.ofInt ker)
  let l : Fl K := op.sub (.fin (v.g.ofInt (i + 1 : Nat))) (.fin 1)
  op.mul (op.div (.fin 1) (op.mul (op.mul q k) (v.sq (op.mul (.fin 2) (.fin v.pi)))))
    (v.ex (op.div (Fl.neg (op.mul l l)) (op.mul (op.mul (.fin 2) (op.mul q q)) (op.mul k k))))

/-- `prob_cumulative`, gaco.cpp 706-722 and 729-745. -/
def gaCum (v : GaEnv K σ) (q : Fl K) (ker : Nat) : List (Fl K) :=
  let om := (List.range ker).map (gaOmega v q ker)
  let sum := om.foldl v.op.add v.op.zero
  (List.range ker).map (fun k => (om.take (k + 1)).foldl (fun c o => v.op.add c (v.op.div o sum)) v.op.zero)

/-- `m_q` and `prob_cumulative` in a generation, gaco.cpp 699-746. -/
def gaPhero (v : GaEnv K σ) (A : Gaco K) (gen : Nat) (m : GaMem K) (cum : List (Fl K)) : GaMem K × List (Fl K) :=
  if A.memory = false then
    if gen = 1 ∨ gen = A.threshold then
      let q := if gen = A.threshold then .fin (1 / 100) else m.q
      ({ m with q := q }, gaCum v q A.ker)
    else (m, cum)
  else
    let q := if m.counter = A.threshold then .fin (1 / 100) else m.q
    ({ m with q := q }, gaCum v q A.ker)

/-- The pairs of rows that are compared, gaco.cpp 758-761. -/
def gaPairs (ker : Nat) : List (Nat × Nat) :=
  (List.range (ker - 1)).flatMap (fun c => (List.range' (c + 1) (ker - 1 - c)).map (fun k => (c, k)))

/-- `d_min` and `d_max`, gaco.cpp 753-771; `col` are the entries of the rows for one variable. -/
def gaSpread (op : Fl.Ops K) (ker : Nat) (col : List (Fl K)) : Outcome (Fl K × Fl K) := do
  let a ← Outcome.get col 0
  let b ← Outcome.get col 1
  (gaPairs ker).foldlM (fun d p => do
    let a ← Outcome.get col p.1
    let b ← Outcome.get col p.2
    let t := Fl.abs (op.sub a b)
    pure (if Fl.lt t d.1 then t else d.1, if Fl.gt t d.2 then t else d.2)) (Fl.abs (op.sub a b), Fl.abs (op.sub a b))

/-- The standard deviation from the spread, gaco.cpp 775-792; `h` counts from zero here. -/
def gaDev (v : GaEnv K σ) (P : AProb K) (A : Gaco K) (gen : Nat) (m : GaMem K) (h : Nat) (lo hi dmin dmax : Fl K) : Fl K :=
  let op := v.op
  let d := op.sub dmax dmin
  let w := op.div (op.sub hi lo) A.focus
  let big := fun n : Nat => !Fl.eq A.focus (.fin 0) && Fl.gt (op.div d (.fin (v.g.ofInt n))) w
  let mark : Fl K := .fin (v.g.ofInt m.mark)
  if big gen && !A.memory then w
  else if big m.counter && A.memory then w
  else if h < P.info.nx - P.nix then op.div d mark
  else Fl.stdMax (Fl.stdMax (op.div d mark) (op.div (.fin 1) mark)) (op.sub (.fin 1) (op.div (.fin 1) (v.sq (.fin (v.g.ofInt P.nix)))))

/-- `sigma_vec`, gaco.cpp 748-793. `n_tot - n_con` is the number of integer variables. -/
def gaSigma (v : GaEnv K σ) (P : AProb K) (A : Gaco K) (gen : Nat) (m : GaMem K) (arch : List (List (Fl K))) : Outcome (List (Fl K)) :=
  (List.range P.info.nx).mapM (fun h => do
    let rows ← (List.range A.ker).mapM (Outcome.get arch)
    let col ← rows.mapM (fun r => Outcome.get r (1 + h))
    let d ← gaSpread v.op A.ker col
    let lo ← Outcome.get P.lb h
    let hi ← Outcome.get P.ub h
    pure (gaDev v P A gen m h lo hi d.1 d.2))

/-! ### New ants -/

/-- Body of the loop that looks for the kernel, gaco.cpp 845-847. -/
def gaPickStep (cum : List (Fl K)) (u : Fl K) (ko k : Nat) : Outcome Nat := do
  let a ← Outcome.get cum (k - 1)
  let b ← Outcome.get cum k
  pure (if Fl.gt u a && Fl.le u b then k else ko)

/-- `k_omega`, gaco.cpp 834-849. -/
def gaPick (ker : Nat) (cum : List (Fl K)) (u : Fl K) : Outcome Nat := do
  let a ← Outcome.get cum 0
  if Fl.le u a then pure 0
  else do
    let b ← Outcome.get cum (ker - 2)
    if Fl.gt u b then pure (ker - 1)
    else (List.range' 1 (ker - 2)).foldlM (gaPickStep cum u) 0

/-- `g_h < lb[h] || g_h > ub[h]` -/
def gaOut (lo hi g : Fl K) : Bool := Fl.lt g lo || Fl.gt g hi

/-- The loop that draws again, gaco.cpp 854-858, with the number of draws left. -/
def gaRedraw (v : GaEnv K σ) (c s lo hi : Fl K) : Nat → Fl K → Run σ (Fl K)
  | 0, g => pure g
  | n + 1, g => if gaOut lo hi g then do
      let z ← v.d.drawNormal
      gaRedraw v c s lo hi n (v.op.add c (v.op.mul s z))
    else pure g

/-- Inside the bounds, gaco.cpp 859-864. -/
def gaClamp (lo hi g : Fl K) : Fl K :=
  let g := if Fl.lt g lo then lo else g
  if Fl.gt g hi then hi else g

/-- A component of a new ant, gaco.cpp 851-870. -/
def gaGene (v : GaEnv K σ) (P : AProb K) (row sig : List (Fl K)) (h : Nat) : Run σ (Fl K) := do
  let c ← Run.lift (Outcome.get row (1 + h))
  let s ← Run.lift (Outcome.get sig h)
  let lo ← Run.lift (Outcome.get P.lb h)
  let hi ← Run.lift (Outcome.get P.ub h)
  let z ← v.d.drawNormal
  let g0 := v.op.add c (v.op.mul s z)
  let g ← if gaOut lo hi g0 then do
      let g ← gaRedraw v c s lo hi 10 g0
      pure (gaClamp lo hi g)
    else pure g0
  pure (if h ≥ P.info.nx - P.nix then v.rd g else g)

/-- A new ant, gaco.cpp 831-873. -/
def gaAnt (v : GaEnv K σ) (P : AProb K) (A : Gaco K) (cum sig : List (Fl K)) (arch : List (List (Fl K))) : Run σ (List (Fl K)) := do
  let u ← v.g.draw01
  let k ← Run.lift (gaPick A.ker cum u)
  let row ← Run.lift (Outcome.get arch k)
  (List.range P.info.nx).foldlM (fun x h => do
    let g ← gaGene v P row sig h
    pure (x ++ [g])) []

/-- `generate_new_ants`, gaco.cpp 810-875. The distributions are passed by value there; their state is part of `σ` here. -/
def gaAnts (v : GaEnv K σ) (P : AProb K) (A : Gaco K) (cum sig : List (Fl K)) (arch : List (List (Fl K))) (n : Nat) :
    Run σ (List (List (Fl K))) :=
  (List.range n).foldlM (fun xs _ => do
    let x ← gaAnt v P A cum sig arch
    pure (xs ++ [x])) []

/-! ### Evaluation -/

/-- Evaluation of the new ants by a batch evaluator, gaco.cpp 290-317, as `evalBatch` (Verif/Model/Nsga2.lean), but the chunks of the result are
the whole fitness vectors. -/
def gaBatch (P : AProb K) (b : Batch K) (xs : List (List (Fl K))) : Run (St K σ) (List (List (Fl K))) := fun s =>
  match checkInput P.info.nx xs.flatten with
  | .ok _ =>
    match b s.evs xs.flatten with
    | .error e => (.throws e, s)
    | .ok fvs =>
      match checkOutput P.info.nx P.info.nf xs.flatten fvs with
      | .ok _ =>
        let fs := (List.range xs.length).map (chunk fvs P.info.nf)
        (.ok fs, { s with evs := s.evs ++ (xs.zip fs).map (fun p => (p.1, .ok p.2)) })
      | .throws e => (.throws e, s)
      | .ub => (.ub, s)
      | .nofuel => (.nofuel, s)
  | .throws e => (.throws e, s)
  | .ub => (.ub, s)
  | .nofuel => (.nofuel, s)

/-- `pop.set_xf(i, ant, fitness)`, gaco.cpp 309-319. -/
def gaStore (v : GaEnv K σ) (P : AProb K) (xs fs : List (List (Fl K))) (_ : Unit) (i : Nat) : Run (St K σ) Unit := do
  let x ← Run.lift (Outcome.get xs i)
  let f ← Run.lift (Outcome.get fs i)
  onPop (Pop.setXF v.sq P.info i x f)

/-- The ant is evaluated and stored, gaco.cpp 327-334. -/
def gaSet (v : GaEnv K σ) (P : AProb K) (xs : List (List (Fl K))) (_ : Unit) (i : Nat) : Run (St K σ) Unit := do
  let x ← Run.lift (Outcome.get xs i)
  setX v.toEnv P i x

/-- The evaluation of the ants, gaco.cpp 288-336. -/
def gaEval (v : GaEnv K σ) (P : AProb K) (bfe : Option (Batch K)) (n : Nat) (xs : List (List (Fl K))) : Run (St K σ) Unit :=
  match bfe with
  | none => (List.range n).foldlM (gaSet v P xs) ()
  | some b => do
    let fs ← gaBatch P b xs
    (List.range n).foldlM (gaStore v P xs fs) ()

/-! ### The oracle -/

/-- `residual` for row `i`, gaco.cpp 351-371; it is zero for the first row of an unconstrained problem. -/
def gaResidual (v : GaEnv K σ) (P : AProb K) (tol : List (Fl K)) (i : Nat) (r : List (Fl K)) : Outcome (Fl K) :=
  if i = 0 ∧ P.info.nic = 0 ∧ P.info.nec = 0 then pure (.fin 0) else do
    let f ← gaSlice r (1 + P.info.nx) P.info.nf
    gaViol v P tol f

/-- Body of the loop over the rows, gaco.cpp 352-395; the state is `m_oracle` and the archive. -/
def gaOracleStep (v : GaEnv K σ) (P : AProb K) (tol : List (Fl K)) (c : Fl K × List (List (Fl K))) (i : Nat) :
    Outcome (Fl K × List (List (Fl K))) := do
  let r ← Outcome.get c.2 i
  let r0 ← Outcome.get c.2 0
  let f0 ← Outcome.get r0 (1 + P.info.nx)
  let res ← gaResidual v P tol i r
  let oracle := if i = 0 ∧ (P.info.nic = 0 ∧ P.info.nec = 0 ∨ Fl.eq res (.fin 0) = true) then f0 else c.1
  let fit ← Outcome.get r (1 + P.info.nx)
  match gaPen v fit oracle res with
  | some p => do
    let a ← Outcome.set c.2 i (r.set 0 p)
    pure (oracle, a)
  | none => pure (oracle, c.2)

/-- The update of the oracle, gaco.cpp 349-399. -/
def gaOracle (v : GaEnv K σ) (P : AProb K) (A : Gaco K) (tol : List (Fl K)) (m : GaMem K) (arch : List (List (Fl K))) :
    Outcome (GaMem K × List (List (Fl K))) := do
  let r0 ← Outcome.get arch 0
  let f0 ← Outcome.get r0 (1 + P.info.nx)
  if Fl.lt f0 m.oracle then do
    let c ← (List.range A.ker).foldlM (gaOracleStep v P tol) (m.oracle, arch)
    pure (if A.memory then { m with oracle := c.1, arch := c.2 } else { m with oracle := c.1 }, c.2)
  else pure (m, arch)

/-! ### The algorithm -/

/-- The local variables of the main loop that live longer than a generation. -/
structure GaVars (K : Type) where
  m : GaMem K
  arch : List (List (Fl K))
  cum : List (Fl K)
  stop : Bool

/-- Body of the main loop, gaco.cpp 177-401. -/
def gaGen (v : GaEnv K σ) (P : AProb K) (A : Gaco K) (bfe : Option (Batch K)) (n : Nat) (gen : Nat) (b : GaVars K) :
    Run (St K σ) (GaVars K × Bool) := do
  if A.impstop ≠ 0 ∧ b.m.nImp ≥ A.impstop then pure ({ b with stop := true }, true)
  else if A.evalstop ≠ 0 ∧ b.m.nEval ≥ A.evalstop then pure ({ b with stop := true }, true)
  else do
    let s ← Run.get
    let ps ← Run.lift (s.pop.f.mapM (gaPenalty v P s.pop.tol b.m.oracle))
    let sl ← Run.lift (stdSort v.srt (gaLess ps) (List.range n))
    let r ← Run.lift (gaArchive v P A gen s.pop.x s.pop.f ps sl b.m b.arch)
    let ph := gaPhero v A gen r.1 b.cum
    let sig ← Run.lift (gaSigma v P A gen ph.1 r.2)
    let ants ← onRng (gaAnts v P A ph.2 sig r.2 n)
    gaEval v P bfe n ants
    let s' ← Run.get
    let check ← Run.lift (Con.compareFc v.sq s'.pop.chF s.pop.chF P.info.nec s'.pop.tol)
    let m := { ph.1 with nEval := if check = false then incU ph.1.nEval else 1 }
    let o ← Run.lift (gaOracle v P A s'.pop.tol m r.2)
    pure (⟨o.1, o.2, ph.2, false⟩, false)

/-- `pop.set_xf(i_ker, ant_final, fitness_final)`, gaco.cpp 408-415. -/
def gaFinal (v : GaEnv K σ) (P : AProb K) (arch : List (List (Fl K))) (_ : Unit) (i : Nat) : Run (St K σ) Unit := do
  let r ← Run.lift (Outcome.get arch i)
  let x ← Run.lift (gaSlice r 1 P.info.nx)
  let f ← Run.lift (gaSlice r (1 + P.info.nx) P.info.nf)
  onPop (Pop.setXF v.sq P.info i x f)

/-- The members at the begin of `evolve`, gaco.cpp 107-109. They remain so if one of the checks throws. -/
def gaCount (A : Gaco K) (m : GaMem K) : GaMem K := if A.memory then { m with counter := incU m.counter } else m

/-- `gaco::evolve`, gaco.cpp 104-442. `m` are the members that `evolve` changes; the result is their new value. -/
def gaEvolve (v : GaEnv K σ) (P : AProb K) (A : Gaco K) (bfe : Option (Batch K)) (fuel : Nat) (m : GaMem K) : Run (St K σ) (GaMem K) := do
  let s ← Run.get
  let n := s.pop.id.length
  if n = 0 then pure (gaCount A m)
  else if P.info.stochastic then Run.throw .invalidArgument
  else if A.gens = 0 then pure (gaCount A m)
  else if n < 2 then Run.throw .invalidArgument
  else if A.ker > n then Run.throw .invalidArgument
  else if P.info.nobj ≠ 1 then Run.throw .invalidArgument
  else do
    let b ← genLoop (gaGen v P A bfe n) A.gens fuel 1
      ⟨gaCount A m, List.replicate A.ker (List.replicate (1 + P.info.nx + P.info.nf) (.fin 1)), List.replicate A.ker (.fin 0), false⟩
    if b.stop = false ∧ A.memory = false then (List.range A.ker).foldlM (gaFinal v P b.arch) () else pure ()
    pure b.m

end Verif.Alg
