import Verif.Model.Nlopt

/-!
# Model of src/algorithms/ipopt.cpp

Like NLopt, Ipopt is a parameter: it calls the methods of `ipopt_nlp` as it likes, depending on the options and on all the answers, and passes any point to
`finalize_solution`, or does not call it. The screen output is not modelled. The values stored by `finalize_solution` besides the point are never read.
-/

set_option autoImplicit false

namespace Verif.Alg

open Verif Prob

variable {K σ : Type} [Field K] [LinearOrder K]

/-! ### The constructor of `ipopt_nlp` -/

/-- `m_obj_g_sp`, `m_h_sp`, `m_jac_sp`, `m_lag_sp`. -/
structure IpNlp where
  objSp : List (Nat × Nat)
  hSp : List (List (Nat × Nat))
  jacSp : List (Nat × Nat)
  lagSp : List (Nat × Nat)
deriving DecidableEq

/-- `boost::numeric_cast<Index>(n)`; `Index` is `int`. -/
def ipCast (n : Nat) : Outcome Nat := if n < 2 ^ 31 then .ok n else .throws .badCast

/-- Conversion of a pair to `Index`. -/
def ipCastPair (p : Nat × Nat) : Outcome (Nat × Nat) := do
  let a ← ipCast p.1
  let b ← ipCast p.2
  pure (a, b)

/-- The loop of `std::set_union`; the first number is the fuel. -/
def ipUnionLoop : Nat → List (Nat × Nat) → List (Nat × Nat) → List (Nat × Nat)
  | 0, _, _ => []
  | _ + 1, [], b => b
  | _ + 1, a, [] => a
  | n + 1, x :: a, y :: b =>
    if pairLt x y then x :: ipUnionLoop n a (y :: b)
    else if pairLt y x then y :: ipUnionLoop n (x :: a) b
    else x :: ipUnionLoop n a b

/-- `std::set_union` -/
def ipUnion (a b : List (Nat × Nat)) : List (Nat × Nat) := ipUnionLoop (a.length + b.length + 1) a b

/-- The patterns of the hessians and of the hessian of the lagrangian, src/algorithms/ipopt.cpp 177-213. -/
def ipHess (P : AProb K) (G : GProb K) : Outcome (List (List (Nat × Nat)) × List (Nat × Nat)) :=
  match G.hs with
  | some _ => do
    let l ← hessiansSparsity G.p G.hs
    pure (l, l.foldl ipUnion [])
  | none => pure ([], denseHessian P.info.nx)

/-- Constructor of `ipopt_nlp`, src/algorithms/ipopt.cpp 132-214. -/
def ipMake (P : AProb K) (G : GProb K) : Outcome IpNlp :=
  if P.info.nobj > 1 then .throws .invalidArgument
  else if G.hasGrad = false then .throws .invalidArgument
  else do
    let sp ← gradientSparsity G.p G.gs
    let k := nlLower sp (1, 0)
    let jac ← (sp.drop k).mapM (fun p => ipCastPair (p.1 - 1, p.2))
    let obj := if G.gs.isSome then sp.take k else []
    let h ← ipHess P G
    let lag ← h.2.mapM ipCastPair
    pure ⟨obj, h.1, jac, lag⟩

/-! ### The methods -/

/-- What Ipopt calls. `jac` and `hess` are the calls with an array for the values, the other ones are for the structure. -/
inductive IpAsk (K : Type) where
  | info
  | bounds
  | start (initX initZ initLambda : Bool)
  | f (x : List (Fl K))
  | gradF (x : List (Fl K))
  | g (x : List (Fl K))
  | jacStruct
  | jac (x : List (Fl K))
  | hessStruct
  | hess (x : List (Fl K)) (factor : Fl K) (lambda : List (Fl K))
deriving DecidableEq

/-- The output arguments of a method. -/
inductive IpVal (K : Type) where
  | info (n m jac lag : Nat)
  | bounds (xl xu gl gu : List (Fl K))
  | values (l : List (Fl K))
  | struct (l : List (Nat × Nat))
deriving DecidableEq

/-- `prob.hessians(x)`, src/problem.cpp 539-550. -/
def ipHessians (G : GProb K) (x : List (Fl K)) : Run (NlSt K σ) (List (List (Fl K))) := fun s =>
  if x.length ≠ G.p.nx then (.throws .invalidArgument, s)
  else if G.hasHess = false then (.throws .notImplemented, s)
  else
    (match G.hess s.hcalls x with
      | .error e => .throws e
      | .ok h => do
        checkHessiansVector G.p h
        pure h,
     { s with hcalls := s.hcalls ++ [x] })

/-- `get_nlp_info`, src/algorithms/ipopt.cpp 226-258. -/
def ipInfo (P : AProb K) (N : IpNlp) : Outcome (IpVal K) := do
  let n ← ipCast P.info.nx
  let m ← ipCast P.info.nc
  let j ← ipCast N.jacSp.length
  let l ← ipCast N.lagSp.length
  pure (.info n m j l)

/-- `get_bounds_info`, src/algorithms/ipopt.cpp 261-292. -/
def ipBounds (P : AProb K) : IpVal K :=
  .bounds P.lb P.ub (List.replicate P.info.nec (.fin 0) ++ List.replicate (P.info.nc - P.info.nec) .ninf)
    (List.replicate P.info.nec (.fin 0) ++ List.replicate (P.info.nc - P.info.nec) (.fin 0))

/-- `get_starting_point`, src/algorithms/ipopt.cpp 295-328. Without `init_x` nothing is written. -/
def ipStart (x0 : List (Fl K)) (initX initZ initLambda : Bool) : Outcome (IpVal K) :=
  if initZ then .throws .runtimeError
  else if initLambda then .throws .runtimeError
  else .ok (.values (if initX then x0 else []))

/-- The gradient of the objective function, src/algorithms/ipopt.cpp 390-408. -/
def ipGradF {R : Type} (z : R) (nx : Nat) (sparse : Bool) (objSp : List (Nat × Nat)) (g : List R) : Outcome (List R) :=
  if sparse then nlScatter (fun p => p.2) objSp g (List.replicate nx z) else nlSlice g 0 nx

/-- The values of the constraints, src/algorithms/ipopt.cpp 426-432. -/
def ipCons {R : Type} (nec nc : Nat) (f : List R) : Outcome (List R) := do
  let a ← nlSlice f 1 nec
  let b ← nlSlice f (1 + nec) (nc - nec)
  pure (a ++ b)

/-- The values of the jacobian, src/algorithms/ipopt.cpp 455-460. -/
def ipJac {R : Type} (nx : Nat) (sparse : Bool) (objSp : List (Nat × Nat)) (g : List R) : Outcome (List R) :=
  let k := if sparse then objSp.length else nx
  if k ≤ g.length then .ok (g.drop k) else .ub

/-- The hessian of the objective function, src/algorithms/ipopt.cpp 504-528: a loop over the merged pattern, with iterators into the pattern and the
values of the objective. -/
def ipFirst {R : Type} (z : R) (mul : R → R) : List (Nat × Nat) → List (Nat × Nat) → List R → Outcome (List R)
  | [], _, _ => pure []
  | l :: ls, p :: ps, h =>
    if p.1 = l.1 ∧ p.2 = l.2 then
      match h with
      | [] => .ub
      | d :: ds => do
        let r ← ipFirst z mul ls ps ds
        pure (mul d :: r)
    else do
      let r ← ipFirst z mul ls (p :: ps) h
      pure (z :: r)
  | _ :: ls, [], h => do
    let r ← ipFirst z mul ls [] h
    pure (z :: r)

/-- The hessian of a constraint is added, src/algorithms/ipopt.cpp 532-546. -/
def ipAdd {R : Type} (acc : R → R → R) : List (Nat × Nat) → List (Nat × Nat) → List R → List R → Outcome (List R)
  | [], _, _, vs => pure vs
  | _ :: _, _, _, [] => .ub
  | l :: ls, p :: ps, h, v :: vs =>
    if p.1 = l.1 ∧ p.2 = l.2 then
      match h with
      | [] => .ub
      | d :: ds => do
        let r ← ipAdd acc ls ps ds vs
        pure (acc v d :: r)
    else do
      let r ← ipAdd acc ls (p :: ps) h vs
      pure (v :: r)
  | _ :: ls, [], h, v :: vs => do
    let r ← ipAdd acc ls [] h vs
    pure (v :: r)

/-- `std::transform` with two ranges, the second one at least as long; the rest of it stays. -/
def ipZip {R : Type} (f : R → R → R) : List R → List R → Outcome (List R)
  | [], vs => pure vs
  | _ :: _, [] => .ub
  | d :: ds, v :: vs => do
    let r ← ipZip f ds vs
    pure (f v d :: r)

/-- The values of the hessian of the lagrangian, src/algorithms/ipopt.cpp 499-563; `n` is the size of the array `values`. -/
def ipLag (op : Fl.Ops K) (N : IpNlp) (sparse : Bool) (hs : List (List (Fl K))) (factor : Fl K) (lambda : List (Fl K)) : Outcome (List (Fl K)) := do
  let h0 ← Outcome.get hs 0
  if sparse then do
    let s0 ← Outcome.get N.hSp 0
    let vs ← ipFirst (.fin 0) (fun d => op.mul d factor) N.lagSp s0 h0
    (List.range' 1 (hs.length - 1)).foldlM (fun vs j => do
      let sp ← Outcome.get N.hSp j
      let h ← Outcome.get hs j
      let lam ← Outcome.get lambda (j - 1)
      ipAdd (fun v d => op.add v (op.mul d lam)) N.lagSp sp h vs) vs
  else if h0.length ≠ N.lagSp.length then .ub
  else (List.range' 1 (hs.length - 1)).foldlM (fun vs i => do
      let h ← Outcome.get hs i
      let lam ← Outcome.get lambda (i - 1)
      ipZip (fun v d => op.add v (op.mul lam d)) h vs) (h0.map (fun d => op.mul factor d))

/-- The body of the method that is called: `eval_f` src/algorithms/ipopt.cpp 333-374 and the other ones up to line 572. -/
def ipBody (v : Env K σ) (P : AProb K) (G : GProb K) (verb : Nat) (N : IpNlp) (x0 : List (Fl K)) : IpAsk K → Run (NlSt K σ) (IpVal K)
  | .info => Run.lift (ipInfo P N)
  | .bounds => pure (ipBounds P)
  | .start ix iz il => Run.lift (ipStart x0 ix iz il)
  | .f x => do
    let f ← onSt (eval P x)
    let a ← Run.lift (Outcome.get f 0)
    nlCount v.sq P verb f
    pure (.values [a])
  | .gradF x => do
    let g ← nlGradient G x
    let d ← Run.lift (ipGradF (.fin 0) P.info.nx G.gs.isSome N.objSp g)
    pure (.values d)
  | .g x => do
    let f ← onSt (eval P x)
    let c ← Run.lift (ipCons P.info.nec P.info.nc f)
    pure (.values c)
  | .jacStruct => pure (.struct N.jacSp)
  | .jac x => do
    let g ← nlGradient G x
    let d ← Run.lift (ipJac P.info.nx G.gs.isSome N.objSp g)
    pure (.values d)
  | .hessStruct => if G.hasHess = false then Run.throw .invalidArgument else pure (.struct N.lagSp)
  | .hess x factor lambda =>
    if G.hasHess = false then Run.throw .invalidArgument
    else do
      let h ← ipHessians G x
      let d ← Run.lift (ipLag v.op N G.hs.isSome h factor lambda)
      pure (.values d)

/-- Ipopt: at the end there are the point given to `finalize_solution`, if that was called, and the return status. -/
abbrev IpSolver (K : Type) := ExtSolver (IpAsk K) (IpVal K) (Option (List (Fl K)) × Int)

/-! ### Options -/

/-- A call of `SetStringValue`, `SetNumericValue` or `SetIntegerValue`. -/
inductive IpOpt (K : Type) where
  | str (name value : String)
  | num (name : String) (value : Fl K)
  | int (name : String) (value : Int)
deriving DecidableEq

/-- The data members: the policies, the verbosity and the maps of options, as lists in the order of their keys. -/
structure IpPar (K : Type) where
  select : Policy
  replace : Policy
  verb : Nat
  strs : List (String × String)
  ints : List (String × Int)
  nums : List (String × Fl K)

/-- `m_opts[name] = value`, src/algorithms/ipopt.cpp 969-998, on a `std::map`. -/
def ipSetOpt {V : Type} (name : String) (value : V) : List (String × V) → List (String × V)
  | [] => [(name, value)]
  | p :: ps => if name < p.1 then (name, value) :: p :: ps else if name = p.1 then (name, value) :: ps else p :: ipSetOpt name value ps

/-- `set_string_options` and the like, src/algorithms/ipopt.cpp 1008-1043. -/
def ipSetOpts {V : Type} (m l : List (String × V)) : List (String × V) := m.foldl (fun l p => ipSetOpt p.1 p.2 l) l

/-- `*std::min_element(l.begin(), l.end())` -/
def ipMin : List (Fl K) → Outcome (Fl K)
  | [] => .ub
  | a :: l => .ok (l.foldl (fun m b => if Fl.lt b m then b else m) a)

/-- The tolerance of the constraints, src/algorithms/ipopt.cpp 862-873: the smallest of the problem, if it is positive and the user has not set one. -/
def ipTol (P : AProb K) (A : IpPar K) (tol : List (Fl K)) : Outcome (List (IpOpt K)) :=
  if P.info.nc ≠ 0 ∧ (A.nums.lookup "constr_viol_tol").isNone then do
    let t ← ipMin tol
    pure (if Fl.gt t (.fin 0) then [.num "constr_viol_tol" t] else [])
  else pure []

/-- The options set one after the other, src/algorithms/ipopt.cpp 860-894. -/
def ipOptions (P : AProb K) (G : GProb K) (A : IpPar K) (tol : List (Fl K)) : Outcome (List (IpOpt K)) := do
  let a ← ipTol P A tol
  let b := if G.hasHess = false ∧ (A.strs.lookup "hessian_approximation").isNone then [.str "hessian_approximation" "limited-memory"] else []
  let c := if (A.ints.lookup "print_level").isNone then [.int "print_level" 0] else []
  pure (a ++ b ++ c ++ A.strs.map (fun p => .str p.1 p.2) ++ A.nums.map (fun p => .num p.1 p.2) ++ A.ints.map (fun p => .int p.1 p.2))

/-- How Ipopt reacts: whether an option is accepted after others, and whether the initialisation succeeds. -/
structure IpSetup (K : Type) where
  accept : List (IpOpt K) → IpOpt K → Bool
  init : List (IpOpt K) → Bool

/-- The options are set until one is refused, src/algorithms/ipopt.cpp 662-668. -/
def ipSet (c : IpSetup K) : List (IpOpt K) → List (IpOpt K) → Outcome Unit
  | _, [] => .ok ()
  | past, o :: os => if c.accept past o then ipSet c (past ++ [o]) os else .throws .invalidArgument

/-- `ipopt::evolve`, src/algorithms/ipopt.cpp 819-930; `OptimizeTNLP` is `nlOptimize`. The check of the initial guess and what follows the optimisation is the same code as in
`nlopt::evolve`. -/
def ipEvolve (v : Env K σ) (P : AProb K) (G : GProb K) (c : IpSetup K) (lib : List (IpOpt K) → IpSolver K) (A : IpPar K) (fuel : Nat) :
    Run (NlSt K σ) Unit := do
  let s ← Run.get
  if s.st.pop.id.length = 0 then pure ()
  else do
    let xf ← onSt (selectIndividual v P A.select)
    Run.lift (nlGuess P.lb P.ub xf.1)
    let N ← Run.lift (ipMake P G)
    let opts ← Run.lift (ipOptions P G A s.st.pop.tol)
    Run.lift (ipSet c [] opts)
    if c.init opts = false then Run.throw .runtimeError
    else do
      Run.modify (fun s => { s with eptr := none, count := 0, log := [] })
      let r ← nlOptimize (fun a => nlGuard (ipBody v P G A.verb N xf.1 a)) (lib opts) fuel []
      nlFinish v P A.replace xf.2 (r.1.getD (List.replicate P.info.nx (.fin 0))) r.2

end Verif.Alg
