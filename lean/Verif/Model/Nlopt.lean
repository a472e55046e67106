import Verif.Model.Algo

/-!
# Model of src/algorithms/nlopt.cpp

NLopt is a parameter: it calls back the wrappers of the objective function and the constraints with any points it likes, depending on all the answers it
got before, and at the end leaves any point in the array given to it. Only the number of the entries is fixed. The wrappers evaluate user code, whose
results may depend on the calls made before (those of the gradient on the calls of the gradient, those of the fitness on the calls of the fitness). The
screen output is not modelled.
-/

set_option autoImplicit false

namespace Verif.Alg

open Verif Prob

variable {K σ : Type} [Field K] [LinearOrder K]

/-! ### Derivatives -/

/-- What the wrappers of NLopt and Ipopt use of the problem besides `AProb`: the constructed `problem`, `has_gradient()`, `has_hessians()`, the sparsity
patterns the user's problem returns now (`none`: not implemented), and the user's functions. The first argument of these are the points of the
calls made before. -/
structure GProb (K : Type) where
  p : Problem K
  hasGrad : Bool
  hasHess : Bool
  gs : Option (List (Nat × Nat))
  hs : Option (List (List (Nat × Nat)))
  grad : List (List (Fl K)) → List (Fl K) → User (List (Fl K))
  hess : List (List (Fl K)) → List (Fl K) → User (List (List (Fl K)))

/-- One line of the log: evaluations of the objective, its value, violated constraints, norm of the violation, feasibility. -/
structure NlLine (K : Type) where
  evals : Nat
  obj : Fl K
  nv : Nat
  viol : Fl K
  feas : Bool
deriving DecidableEq

/-- The state: that of the algorithm, the points at which gradient and hessians were asked for, the members of `nlopt_obj` (`m_eptr`,
`m_objfun_counter`, `m_log`) and those of `nlopt` that `evolve` changes (`m_last_opt_result`, `m_log`). -/
structure NlSt (K σ : Type) where
  st : St K σ
  gcalls : List (List (Fl K))
  hcalls : List (List (Fl K))
  eptr : Option Exn
  count : Nat
  log : List (NlLine K)
  res : Option Int
  mlog : List (NlLine K)

/-- Work on the state of the algorithm. -/
def onSt {α : Type} (m : Run (St K σ) α) : Run (NlSt K σ) α := fun s => ((m s.st).1, { s with st := (m s.st).2 })

/-- `prob.gradient(x)`, src/problem.cpp 456-467; for a problem without gradient the call throws `not_implemented_error`. The counter of gradient
evaluations is modelled in `Verif.Model.Problem`. -/
def nlGradient (G : GProb K) (x : List (Fl K)) : Run (NlSt K σ) (List (Fl K)) := fun s =>
  if x.length ≠ G.p.nx then (.throws .invalidArgument, s)
  else if G.hasGrad = false then (.throws .notImplemented, s)
  else
    (match G.grad s.gcalls x with
      | .error e => .throws e
      | .ok g => if g.length ≠ G.p.gsDim then .throws .invalidArgument else .ok g,
     { s with gcalls := s.gcalls ++ [x] })

/-- `std::copy(l.data() + i, l.data() + i + n, ...)` -/
def nlSlice {R : Type} (l : List R) (i n : Nat) : Outcome (List R) := if i + n ≤ l.length then .ok ((l.drop i).take n) else .ub

/-- `std::lower_bound(sp.begin(), sp.end(), key)`: the first position that is not below `key`, which is what the algorithm gives for a sorted
sequence. `gradient_sparsity()` returns only sorted ones. -/
def nlLower (sp : List (Nat × Nat)) (key : Nat × Nat) : Nat := sp.findIdx (fun p => !pairLt p key)

/-- `for (; it != end; ++it, ++g_it) out[idx(*it)] = *g_it`. The index is not reduced modulo 2^64: it stays below the size of an array. -/
def nlScatter {R : Type} (idx : Nat × Nat → Nat) : List (Nat × Nat) → List R → List R → Outcome (List R)
  | [], _, out => pure out
  | _ :: _, [], _ => .ub
  | p :: ps, g :: gs, out => do
    let out ← Outcome.set out (idx p) g
    nlScatter idx ps gs out

/-- The gradient of the objective function, src/algorithms/nlopt.cpp 404-433; `sp` is `m_sp`, if the problem has a sparsity pattern. -/
def nlObjGrad {R : Type} (z : R) (nx : Nat) (sp : Option (List (Nat × Nat))) (g : List R) : Outcome (List R) :=
  match sp with
  | some sp => nlScatter (fun p => p.2) (sp.takeWhile (fun p => p.1 = 0)) g (List.replicate nx z)
  | none => nlSlice g 0 nx

/-- The gradients of the inequality constraints, src/algorithms/nlopt.cpp 512-555. -/
def nlIneqGrad {R : Type} (z : R) (nx nec nic : Nat) (sp : Option (List (Nat × Nat))) (g : List R) : Outcome (List R) :=
  match sp with
  | some sp =>
    let k := nlLower sp (nec + 1, 0)
    nlScatter (fun p => (p.1 - 1 - nec) * nx + p.2) (sp.drop k) (g.drop k) (List.replicate (nx * nic) z)
  | none => nlSlice g (nx * (1 + nec)) (nic * nx)

/-- The gradients of the equality constraints, src/algorithms/nlopt.cpp 598-644. -/
def nlEqGrad {R : Type} (z : R) (nx nec : Nat) (sp : Option (List (Nat × Nat))) (g : List R) : Outcome (List R) :=
  match sp with
  | some sp =>
    let k := nlLower sp (1, 0)
    nlScatter (fun p => (p.1 - 1) * nx + p.2) ((sp.drop k).takeWhile (fun p => p.1 < nec + 1)) (g.drop k) (List.replicate (nx * nec) z)
  | none => nlSlice g nx (nx * nec)

/-! ### The wrappers -/

/-- What NLopt calls, and whether it passes an array for the gradient. -/
inductive NlAsk (K : Type) where
  | objfun (x : List (Fl K)) (grad : Bool)
  | ineq (x : List (Fl K)) (grad : Bool)
  | eq (x : List (Fl K)) (grad : Bool)
deriving DecidableEq

/-- What it gets: the values and the gradient if there is an array for it. After an exception the value is `HUGE_VAL` and the arrays are whatever they
are; this is `none` below. -/
abbrev NlAns (K : Type) := List (Fl K) × Option (List (Fl K))

/-- A line of the log: number of violated constraints and norm, src/algorithms/nlopt.cpp 437-459. -/
def nlLine (sq : Fl K → Fl K) (P : AProb K) (tol : List (Fl K)) (count : Nat) (f : List (Fl K)) : Outcome (NlLine K) := do
  let e ← Con.testCons sq true ((f.drop 1).take P.info.nec) tol
  let i ← Con.testCons sq false (f.drop (1 + P.info.nec)) (tol.drop P.info.nec)
  let feas ← Con.feasibilityF sq P.info.nobj P.info.nec P.info.nic tol f
  let a ← Outcome.get f 0
  pure ⟨count + 1, a, P.info.nc - e.1 - i.1, Fl.add e.2 i.2, feas⟩

/-- The log is updated if requested, and the counter, src/algorithms/nlopt.cpp 435-463. The `unsigned long` counter does not wrap. -/
def nlCount (sq : Fl K → Fl K) (P : AProb K) (verb : Nat) (f : List (Fl K)) : Run (NlSt K σ) Unit := do
  let s ← Run.get
  if verb ≠ 0 ∧ s.count % verb = 0 then do
    let l ← Run.lift (nlLine sq P s.st.pop.tol s.count f)
    Run.modify (fun s => { s with log := s.log ++ [l] })
  else pure ()
  Run.modify (fun s => { s with count := s.count + 1 })

/-- The pattern stored by `set_objfun()`, src/algorithms/nlopt.cpp 295-297. -/
abbrev NlPat := Option (List (Nat × Nat))

/-- `if (grad) { ... }` of the three wrappers, src/algorithms/nlopt.cpp 403-433, 511-555, 597-644: the user's gradient, written by `w` into the array
of NLopt.  NLopt's array is not an argument here but the answer. -/
def nlDeriv (G : GProb K) (grad : Bool) (x : List (Fl K)) (w : List (Fl K) → Outcome (List (Fl K))) :
    Run (NlSt K σ) (Option (List (Fl K))) :=
  if grad then do
    let g ← nlGradient G x
    let d ← Run.lift (w g)
    pure (some d)
  else pure none

/-- Body of `nlopt_objfun_wrapper`, src/algorithms/nlopt.cpp 373-466. -/
def nlObjfun (v : Env K σ) (P : AProb K) (G : GProb K) (verb : Nat) (sp : NlPat) (x : List (Fl K)) (grad : Bool) :
    Run (NlSt K σ) (NlAns K) := do
  if grad = true ∧ G.hasGrad = false then Run.throw .invalidArgument
  else do
    let f ← onSt (eval P x)
    let g ← nlDeriv G grad x (nlObjGrad (.fin 0) P.info.nx sp)
    nlCount v.sq P verb f
    let a ← Run.lift (Outcome.get f 0)
    pure ([a], g)

/-- Body of `nlopt_ineq_c_wrapper`, src/algorithms/nlopt.cpp 481-555. -/
def nlIneq (P : AProb K) (G : GProb K) (sp : NlPat) (x : List (Fl K)) (grad : Bool) : Run (NlSt K σ) (NlAns K) := do
  if grad = true ∧ G.hasGrad = false then Run.throw .invalidArgument
  else do
    let f ← onSt (eval P x)
    let c ← Run.lift (nlSlice f (1 + P.info.nec) P.info.nic)
    let g ← nlDeriv G grad x (nlIneqGrad (.fin 0) P.info.nx P.info.nec P.info.nic sp)
    pure (c, g)

/-- Body of `nlopt_eq_c_wrapper`, src/algorithms/nlopt.cpp 568-644. -/
def nlEq (P : AProb K) (G : GProb K) (sp : NlPat) (x : List (Fl K)) (grad : Bool) : Run (NlSt K σ) (NlAns K) := do
  if grad = true ∧ G.hasGrad = false then Run.throw .invalidArgument
  else do
    let f ← onSt (eval P x)
    let c ← Run.lift (nlSlice f 1 P.info.nec)
    let g ← nlDeriv G grad x (nlEqGrad (.fin 0) P.info.nx P.info.nec sp)
    pure (c, g)

/-- The body of the wrapper that is called. -/
def nlBody (v : Env K σ) (P : AProb K) (G : GProb K) (verb : Nat) (sp : NlPat) : NlAsk K → Run (NlSt K σ) (NlAns K)
  | .objfun x g => nlObjfun v P G verb sp x g
  | .ineq x g => nlIneq P G sp x g
  | .eq x g => nlEq P G sp x g

/-- `try { ... } catch (...) { m_eptr = std::current_exception(); ... }`, src/algorithms/nlopt.cpp 467-473, 556-560, 645-649. -/
def nlGuard {α : Type} (m : Run (NlSt K σ) α) : Run (NlSt K σ) (Option α) :=
  Run.tryCatch (do let r ← m; pure (some r)) (fun e => do
    Run.modify (fun s => { s with eptr := some e })
    pure none)

/-- A solver: what it does next after some calls and answers; at the end its result. -/
abbrev ExtSolver (A B R : Type) := List (A × Option B) → A ⊕ R

/-- NLopt: at the end there are the contents of the array `initial_guess` and the result code. -/
abbrev NlSolver (K : Type) := ExtSolver (NlAsk K) (NlAns K) (List (Fl K) × Int)

/-- A run of a solver (`nlopt_optimize`, called in src/algorithms/nlopt.cpp 824). It need not come to an end. -/
def nlOptimize {A B R : Type} (ask : A → Run (NlSt K σ) (Option B)) (lib : ExtSolver A B R) : Nat → List (A × Option B) → Run (NlSt K σ) R
  | 0, _ => Run.lift .nofuel
  | fuel + 1, h =>
    match lib h with
    | .inr r => pure r
    | .inl a => do
      let b ← ask a
      nlOptimize ask lib fuel (h ++ [(a, b)])

/-! ### The algorithm -/

/-- What can be set: the policies and the verbosity. The name of the solver and the stopping criteria are passed to NLopt. -/
structure Nlopt where
  select : Policy
  replace : Policy
  verb : Nat

/-- How NLopt reacts to the configuration: whether `nlopt_create` succeeds, whether the stopping criteria are accepted (seven calls), whether the
bounds are (two calls) and the objective function, and whether constraints with these tolerances are. For a local optimiser: whether its creation
and its stopping criteria succeed. -/
structure NlSetup (K : Type) where
  create : Bool
  criteria : Bool
  bounds : List (Fl K) → List (Fl K) → Bool
  objective : Bool
  addEq : List (Fl K) → Bool
  addIneq : List (Fl K) → Bool
  sub : Option (Bool × Bool)

/-- `boost::numeric_cast<unsigned>(n)` -/
def nlCast (n : Nat) : Outcome Unit := if n < 2 ^ 32 then .ok () else .throws .badCast

/-- Constructor of `nlopt_obj`, src/algorithms/nlopt.cpp 179-264. -/
def nlMake (P : AProb K) (create criteria : Bool) : Outcome Unit := do
  nlCast P.info.nx
  if create = false then .throws .runtimeError
  else if P.info.nobj ≠ 1 then .throws .invalidArgument
  else if criteria = false then .throws .invalidArgument
  else .ok ()

/-- The pattern `m_sp`, src/algorithms/nlopt.cpp 295-297: kept only if the user provides one. -/
def nlPattern (G : GProb K) : Outcome NlPat :=
  match G.gs with
  | some _ => do
    let l ← gradientSparsity G.p G.gs
    pure (some l)
  | none => pure none

/-- `set_eq_constraints()` and `set_ineq_constraints()`, src/algorithms/nlopt.cpp 306-337: `n` constraints with the tolerances from position `i`. -/
def nlAdd (add : List (Fl K) → Bool) (tol : List (Fl K)) (i n : Nat) : Outcome Unit :=
  if n ≠ 0 then do
    nlCast n
    let t ← nlSlice tol i n
    if add t = false then .throws .invalidArgument else .ok ()
  else .ok ()

/-- The local optimiser, src/algorithms/nlopt.cpp 795-800. -/
def nlSub (P : AProb K) (sub : Option (Bool × Bool)) : Outcome Unit :=
  match sub with
  | some k => nlMake P k.1 k.2
  | none => .ok ()

/-- `set_bounds`, `set_objfun`, `set_eq_constraints`, `set_ineq_constraints` and the local optimiser, src/algorithms/nlopt.cpp 267-339, 787-800. The
result is `m_sp`. -/
def nlConfigure (P : AProb K) (G : GProb K) (c : NlSetup K) (tol : List (Fl K)) : Outcome NlPat := do
  nlMake P c.create c.criteria
  if c.bounds P.lb P.ub = false then .throws .invalidArgument
  else do
    let sp ← nlPattern G
    if c.objective = false then .throws .invalidArgument
    else do
      nlAdd c.addEq tol 0 P.info.nec
      nlAdd c.addIneq tol P.info.nec P.info.nic
      nlSub P c.sub
      pure sp

/-- The check of the initial guess, src/algorithms/nlopt.cpp 810-820. -/
def nlGuess (lb ub x : List (Fl K)) : Outcome Unit :=
  (List.range lb.length).forM (fun i => do
    let a ← Outcome.get x i
    if a.isNan then .throws .invalidArgument
    else do
      let l ← Outcome.get lb i
      let u ← Outcome.get ub i
      if Fl.lt a l || Fl.gt a u then .throws .invalidArgument else .ok ())

/-- What follows the optimisation, src/algorithms/nlopt.cpp 824-843: the members are replaced, the exception is thrown again, the result is
evaluated and stored if it is better. -/
def nlFinish (v : Env K σ) (P : AProb K) (replace : Policy) (old x : List (Fl K)) (code : Int) : Run (NlSt K σ) Unit := do
  Run.modify (fun s => { s with res := some code, mlog := s.log })
  let s ← Run.get
  match s.eptr with
  | some e => Run.throw e
  | none => do
    let f ← onSt (eval P x)
    let s ← Run.get
    let b ← Run.lift (Con.compareFc v.sq f old P.info.nec s.st.pop.tol)
    if b then onSt (replaceIndividual v P replace x f) else pure ()

/-- `nlopt::evolve`, src/algorithms/nlopt.cpp 776-847. -/
def nlEvolve (v : Env K σ) (P : AProb K) (G : GProb K) (c : NlSetup K) (lib : List (Fl K) → NlSolver K) (A : Nlopt) (fuel : Nat) : Run (NlSt K σ) Unit := do
  let s ← Run.get
  if s.st.pop.id.length = 0 then pure ()
  else do
    let sp ← Run.lift (nlConfigure P G c s.st.pop.tol)
    let xf ← onSt (selectIndividual v P A.select)
    Run.lift (nlGuess P.lb P.ub xf.1)
    Run.modify (fun s => { s with eptr := none, count := 0, log := [] })
    let r ← nlOptimize (fun a => nlGuard (nlBody v P G A.verb sp a)) (lib xf.1) fuel []
    nlFinish v P A.replace xf.2 r.1 r.2

/-! ### The object -/

/-- `nlopt_names`, src/algorithms/nlopt.cpp 95-119. -/
def nlNames : List String :=
  ["cobyla", "bobyqa", "newuoa", "newuoa_bound", "praxis", "neldermead", "sbplx", "mma", "ccsaq", "slsqp", "lbfgs", "tnewton_precond_restart",
    "tnewton_precond", "tnewton_restart", "tnewton", "var2", "var1", "auglag", "auglag_eq"]

/-- The data members of `nlopt`, include/pagmo/algorithms/nlopt.hpp 409-423: those of the base, the name, the result code, `stopval`, the four
tolerances, `maxeval`, `maxtime`, verbosity, log and the local optimiser. -/
inductive NlObj (K : Type) where
  | mk (select replace : Policy) (algo : String) (res : Int) (crit : List (Fl K)) (maxeval maxtime : Int) (verb : Nat) (log : List (NlLine K))
      (loc : Option (NlObj K))

/-- `nlopt(const std::string &)`, src/algorithms/nlopt.cpp 713-732, for NLopt version 2 or later. `crit` is stopval, ftol_rel, ftol_abs, xtol_rel, xtol_abs;
`tol` is 1E-8. -/
def nlCtor (tol : Fl K) (algo : String) : Outcome (NlObj K) :=
  if nlNames.contains algo = false then .throws .invalidArgument
  else .ok (.mk .best .best algo 1 [.ninf, .fin 0, .fin 0, tol, .fin 0] 0 0 0 [] none)

/-- `set_stopval` and the other setters, src/algorithms/nlopt.cpp 907-969; the new value of the member. -/
def nlSetCrit (a : Fl K) : Outcome (Fl K) := if a.isNan then .throws .invalidArgument else .ok a

/-- An archive: the values in the order written. The members without the local optimiser are one entry; then the flag. -/
inductive NlTok (K : Type) where
  | members (select replace : Policy) (algo : String) (res : Int) (crit : List (Fl K)) (maxeval maxtime : Int) (verb : Nat) (log : List (NlLine K))
  | flag (b : Bool)

/-- `nlopt::save`, src/algorithms/nlopt.cpp 1008-1019. -/
def nlSave : NlObj K → List (NlTok K)
  | .mk s r a res c me mt v l none => [.members s r a res c me mt v l, .flag false]
  | .mk s r a res c me mt v l (some o) => .members s r a res c me mt v l :: .flag true :: nlSave o

/-- `nlopt::load`, src/algorithms/nlopt.cpp 1022-1034, into the object `b`; `fresh` is a default-constructed object. The rest of the archive is returned as well.
Without a local optimiser in the archive the one of `b` remains. -/
def nlLoad (fresh : NlObj K) : Nat → NlObj K → List (NlTok K) → Outcome (NlObj K × List (NlTok K))
  | 0, _, _ => .nofuel
  | fuel + 1, .mk _ _ _ _ _ _ _ _ _ loc, .members s r a res c me mt v l :: .flag b :: ts =>
    if b then do
      let o ← nlLoad fresh fuel fresh ts
      pure (.mk s r a res c me mt v l (some o.1), o.2)
    else pure (.mk s r a res c me mt v l loc, ts)
  | _, _, _ => .throws .runtimeError

end Verif.Alg
