import Verif.Base.Run
import Verif.Base.FlArith
import Mathlib.Algebra.Order.Floor.Ring
import Mathlib.Data.Rat.Floor

/-!
# Model of src/problem.cpp: construction checks, sparsity, evaluation counters
-/

set_option autoImplicit false

namespace Verif.Prob

open Verif

variable {K : Type} [Field K] [LinearOrder K]

/-- `std::trunc` on finite values: towards zero. -/
def truncK [FloorRing K] (a : K) : K := if 0 ≤ a then ((⌊a⌋ : ℤ) : K) else ((⌈a⌉ : ℤ) : K)

/-- `std::trunc` -/
def trunc [FloorRing K] : Fl K → Fl K
  | .fin a => .fin (truncK a)
  | x => x

/-- the largest `vector_double::size_type` (64-bit platform) -/
def sizeMax : Nat := 2 ^ 64 - 1

/-- 64-bit unsigned arithmetic -/
def w64 (n : Nat) : Nat := n % 2 ^ 64

/-- Steps 2 and 3 of `check_problem_bounds`, src/problem.cpp 79-108, at index `i`. -/
def checkBoundsAt (lb ub : List (Fl K)) (i : Nat) : Outcome Unit := do
  let l ← Outcome.get lb i
  let u ← Outcome.get ub i
  if l.isNan || u.isNan then .throws .invalidArgument
  else if Fl.gt l u then .throws .invalidArgument
  else .ok ()

/-- The body of the loop over the integer part, src/problem.cpp 98-107. -/
def checkIntAt [FloorRing K] (lb ub : List (Fl K)) (i : Nat) : Outcome Unit := do
  let l ← Outcome.get lb i
  let u ← Outcome.get ub i
  if l.isFinite && !(Fl.eq l (trunc l)) then .throws .invalidArgument
  else if u.isFinite && !(Fl.eq u (trunc u)) then .throws .invalidArgument
  else .ok ()

/-- `detail::check_problem_bounds`, src/problem.cpp 65-109. -/
def checkBounds [FloorRing K] (lb ub : List (Fl K)) (nix : Nat) : Outcome Unit := do
  if lb.length = 0 then .throws .invalidArgument
  else if lb.length ≠ ub.length then .throws .invalidArgument
  else do
    (List.range lb.length).forM (checkBoundsAt lb ub)
    if nix ≠ 0 then
      if nix > lb.length then .throws .invalidArgument
      else (List.range' (lb.length - nix) nix).forM (checkIntAt lb ub)
    else .ok ()

/-- `operator<` on `std::pair<size_type, size_type>` -/
def pairLt (a b : Nat × Nat) : Bool := a.1 < b.1 || (!(b.1 < a.1) && a.2 < b.2)

/-- The loop of `check_gradient_sparsity` / `check_hessian_sparsity`: `bad` rejects a pair, `prev` is
`*(it - 1)`, absent at the beginning. -/
def checkPattern (bad : Nat × Nat → Bool) : Option (Nat × Nat) → List (Nat × Nat) → Outcome Unit
  | _, [] => .ok ()
  | prev, p :: ps =>
    if bad p then .throws .invalidArgument
    else match prev with
      | none => checkPattern bad (some p) ps
      | some q => if !(pairLt q p) then .throws .invalidArgument else checkPattern bad (some p) ps

/-- `problem::check_gradient_sparsity`, src/problem.cpp 832-857. -/
def checkGradientSparsity (nf nx : Nat) (gs : List (Nat × Nat)) : Outcome Unit :=
  checkPattern (fun p => p.1 ≥ nf || p.2 ≥ nx) none gs

/-- `problem::check_hessian_sparsity`, src/problem.cpp 875-901. -/
def checkHessianSparsity (nx : Nat) (hs : List (Nat × Nat)) : Outcome Unit :=
  checkPattern (fun p => p.1 ≥ nx || p.2 > p.1) none hs

/-- `problem::check_hessians_sparsity`, src/problem.cpp 859-873. -/
def checkHessiansSparsity (nf nx : Nat) (hs : List (List (Nat × Nat))) : Outcome Unit :=
  if hs.length ≠ nf then .throws .invalidArgument
  else hs.forM (checkHessianSparsity nx)

/-- `detail::dense_hessian`, src/problem.cpp 113-122. -/
def denseHessian (dim : Nat) : List (Nat × Nat) :=
  (List.range dim).flatMap (fun j => (List.range (j + 1)).map (fun i => (j, i)))

/-- `detail::dense_hessians`, src/problem.cpp 125-129. -/
def denseHessians (fdim dim : Nat) : List (List (Nat × Nat)) := List.replicate fdim (denseHessian dim)

/-- `detail::dense_gradient`, src/problem.cpp 132-141. -/
def denseGradient (fdim dim : Nat) : List (Nat × Nat) :=
  (List.range fdim).flatMap (fun j => (List.range dim).map (fun i => (j, i)))

/-- What the user-defined problem returns from its getters (assumed to give the same answer every time they are
called). A missing sparsity method is `none`. -/
structure Udp (K : Type) where
  lb : List (Fl K)
  ub : List (Fl K)
  nix : Nat
  nobj : Nat
  nec : Nat
  nic : Nat
  gs : Option (List (Nat × Nat))
  hs : Option (List (List (Nat × Nat)))

/-- Data members of a constructed `problem` that the checks set (include/pagmo/problem.hpp 1700-1745). -/
structure Problem (K : Type) where
  lb : List (Fl K)
  ub : List (Fl K)
  nix : Nat
  nobj : Nat
  nec : Nat
  nic : Nat
  gsDim : Nat
  hsDim : List Nat
  cTol : List (Fl K)

/-- `get_nx()` -/
def Problem.nx (p : Problem K) : Nat := p.lb.length

/-- `get_nf()` -/
def Problem.nf (p : Problem K) : Nat := p.nobj + p.nec + p.nic

/-- Step 9 of the constructor for the gradient, src/problem.cpp 198-216. -/
def gsDimOf (gs : Option (List (Nat × Nat))) (nf nx : Nat) : Outcome Nat :=
  match gs with
  | some g => do
    checkGradientSparsity nf nx g
    .ok g.length
  | none =>
    if nx > sizeMax / nf then .throws .invalidArgument
    else .ok (w64 (nx * nf))

/-- Step 9 of the constructor for the hessians, src/problem.cpp 217-236. Products wrap modulo 2^64. -/
def hsDimOf (hs : Option (List (List (Nat × Nat)))) (nf nx : Nat) : Outcome (List Nat) :=
  match hs with
  | some h => do
    checkHessiansSparsity nf nx h
    .ok (h.map List.length)
  | none =>
    if nx = sizeMax ∨ nx / 2 > sizeMax / (nx + 1) then .throws .invalidArgument
    else .ok (List.replicate nf (w64 (w64 (nx * (nx - 1)) / 2 + nx)))

/-- `problem::generic_ctor_impl`, src/problem.cpp 154-240. The `m_has_*` flags and the thread safety are copied
from the UDP without checks and are left out. -/
def construct [FloorRing K] (u : Udp K) : Outcome (Problem K) :=
  if u.nix > u.lb.length then .throws .invalidArgument
  else do
    checkBounds u.lb u.ub u.nix
    if u.nobj = 0 then .throws .invalidArgument
    else if u.nobj > sizeMax / 3 then .throws .invalidArgument
    else if u.nec > sizeMax / 3 then .throws .invalidArgument
    else if u.nic > sizeMax / 3 then .throws .invalidArgument
    else do
      let nf := u.nobj + u.nec + u.nic
      let nx := u.lb.length
      let gsDim ← gsDimOf u.gs nf nx
      let hsDim ← hsDimOf u.hs nf nx
      .ok { lb := u.lb, ub := u.ub, nix := u.nix, nobj := u.nobj, nec := u.nec, nic := u.nic,
            gsDim := gsDim, hsDim := hsDim, cTol := List.replicate (u.nec + u.nic) (.fin 0) }

/-- `problem::gradient_sparsity`, src/problem.cpp 488-507. `now` is what the UDP returns at this call. -/
def gradientSparsity (p : Problem K) (now : Option (List (Nat × Nat))) : Outcome (List (Nat × Nat)) :=
  match now with
  | some g => do
    checkGradientSparsity p.nf p.nx g
    if g.length ≠ p.gsDim then .throws .invalidArgument else .ok g
  | none => .ok (denseGradient p.nf p.nx)

/-- `problem::hessians_sparsity`, src/problem.cpp 571-598. -/
def hessiansSparsity (p : Problem K) (now : Option (List (List (Nat × Nat)))) :
    Outcome (List (List (Nat × Nat))) :=
  match now with
  | some h => do
    checkHessiansSparsity p.nf p.nx h
    if h.map List.length ≠ p.hsDim then .throws .invalidArgument else .ok h
  | none => .ok (denseHessians p.nf p.nx)

/-! ### Evaluation counters -/

/-- The result of user code: a value or an exception. -/
abbrev User (α : Type) := Except Exn α

/-- user code called from C++ -/
def ofUser {α : Type} : User α → Outcome α
  | .ok a => .ok a
  | .error e => .throws e

/-- A call on a problem; the last component is what the user's code does in this call. -/
inductive Call (K : Type) where
  | fitness (dv : List (Fl K)) (user : User (List (Fl K)))
  | batchFitness (dvs : List (Fl K)) (user : User (List (Fl K)))
  /-- `bfe::operator()(p, dvs)`: `user` is what the user-defined batch evaluator returns. -/
  | bfe (dvs : List (Fl K)) (user : User (List (Fl K)))
  | gradient (dv : List (Fl K)) (user : User (List (Fl K)))
  | hessians (dv : List (Fl K)) (user : User (List (List (Fl K))))

/-- `detail::bfe_check_input_dvs`, src/detail/bfe_impl.cpp 63-88. The check of the individual vectors of length
`nx` cannot fail. -/
def checkInput (nx : Nat) (dvs : List (Fl K)) : Outcome Unit :=
  if dvs.length % nx ≠ 0 then .throws .invalidArgument else .ok ()

/-- `detail::bfe_check_output_fvs`, src/detail/bfe_impl.cpp 92-129. -/
def checkOutput (nx nf : Nat) (dvs fvs : List (Fl K)) : Outcome Unit :=
  if fvs.length % nf ≠ 0 then .throws .invalidArgument
  else if fvs.length / nf ≠ dvs.length / nx then .throws .invalidArgument
  else .ok ()

/-- The counters of a problem, `m_fevals`, `m_gevals`, `m_hevals`. -/
structure Counters where
  f : Nat
  g : Nat
  h : Nat
  deriving DecidableEq

/-- Part of a call: code that only touches the caller's data, or an atomic addition to a counter. -/
inductive Act where
  /-- a computation that may throw -/
  | local (o : Outcome Unit)
  /-- `fetch_add(n)` on `m_fevals` -/
  | addF (n : Nat)
  /-- `fetch_add(1)` on `m_gevals` -/
  | addG
  /-- `fetch_add(1)` on `m_hevals` -/
  | addH

/-- `check_gradient_vector`, src/problem.cpp 903-910 -/
def checkGradientVector (p : Problem K) (g : List (Fl K)) : Outcome Unit :=
  if g.length ≠ p.gsDim then .throws .invalidArgument else .ok ()

/-- `check_hessians_vector`, src/problem.cpp 912-930 -/
def checkHessiansVector (p : Problem K) (h : List (List (Fl K))) : Outcome Unit :=
  if h.length ≠ p.nf then .throws .invalidArgument
  else if h.map List.length ≠ p.hsDim then .throws .invalidArgument
  else .ok ()

/-- size check of a vector -/
def checkLen (n : Nat) (v : List (Fl K)) : Outcome Unit :=
  if v.length ≠ n then .throws .invalidArgument else .ok ()

/-- The actions of a call, in program order: `fitness` src/problem.cpp 353-379, `batch_fitness` 413-426 with
`prob_invoke_mem_batch_fitness` 972-984 (the counter is updated before the output is checked), `gradient`
456-467, `hessians` 539-550, `bfe::operator()` src/bfe.cpp 91-110. An action that throws ends the call. -/
def Call.acts (p : Problem K) : Call K → List Act
  | .fitness dv user =>
    [.local (checkLen p.nx dv),
     .local (ofUser user >>= fun f => checkLen p.nf f),
     .addF 1]
  | .batchFitness dvs user =>
    [.local (checkInput p.nx dvs),
     .local (ofUser user >>= fun _ => .ok ()),
     .addF (dvs.length / p.nx),
     .local (ofUser user >>= fun fvs => checkOutput p.nx p.nf dvs fvs)]
  | .bfe dvs user =>
    [.local (checkInput p.nx dvs),
     .local (ofUser user >>= fun fvs => checkOutput p.nx p.nf dvs fvs),
     .addF (dvs.length / p.nx)]
  | .gradient dv user =>
    [.local (checkLen p.nx dv),
     .local (ofUser user >>= fun g => checkGradientVector p g),
     .addG]
  | .hessians dv user =>
    [.local (checkLen p.nx dv),
     .local (ofUser user >>= fun h => checkHessiansVector p h),
     .addH]

/-- A thread: the rest of the call in progress, the calls still to make, the outcomes of the calls made
(exceptions are caught by the client). -/
structure Thread (K : Type) where
  cur : Option (Call K × List Act)
  todo : List (Call K)
  done : List (Call K × Outcome Unit)

/-- One atomic step of a thread on the shared counters. -/
def Thread.step (p : Problem K) (c : Counters) (t : Thread K) : Counters × Thread K :=
  match t.cur with
  | none =>
    match t.todo with
    | [] => (c, t)
    | k :: ks => (c, { t with cur := some (k, k.acts p), todo := ks })
  | some (k, []) => (c, { t with cur := none, done := t.done ++ [(k, .ok ())] })
  | some (k, .local (.ok _) :: as) => (c, { t with cur := some (k, as) })
  | some (k, .local o :: _) => (c, { t with cur := none, done := t.done ++ [(k, o)] })
  | some (k, .addF n :: as) => ({ c with f := w64 (c.f + n) }, { t with cur := some (k, as) })
  | some (k, .addG :: as) => ({ c with g := w64 (c.g + 1) }, { t with cur := some (k, as) })
  | some (k, .addH :: as) => ({ c with h := w64 (c.h + 1) }, { t with cur := some (k, as) })

/-- All threads of the program. A schedule is the list of threads that take the next step. -/
def runThreads (p : Problem K) : List Nat → Counters × List (Thread K) → Counters × List (Thread K)
  | [], s => s
  | i :: is, (c, ts) =>
    match ts[i]? with
    | none => runThreads p is (c, ts)
    | some t =>
      let (c', t') := t.step p c
      runThreads p is (c', ts.set i t')

/-- `problem(const problem &)`, src/problem.cpp 252-265: the counters are copied by value. -/
def copyCounters (c : Counters) : Counters := { f := c.f, g := c.g, h := c.h }

end Verif.Prob
