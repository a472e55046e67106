import Verif.Model.Problem
import Verif.Model.Constrained
import Verif.Model.Decompose
import Verif.Model.Bfe

/-!
# Model of the meta-problems: src/problems/translate.cpp, unconstrain.cpp, decompose.cpp; golomb_ruler.cpp

The inner problem is an arbitrary problem: its properties are those of a constructed `problem`, its fitness functions
arbitrary user code.
-/

set_option autoImplicit false

namespace Verif.Meta

open Verif Prob

variable {K : Type}

/-- The inner `problem m_problem` of a meta-problem: stored properties, the user's `fitness()` and `batch_fitness()`. -/
structure Inner (K : Type) where
  prob : Problem K
  user : List (Fl K) → User (List (Fl K))
  ubatch : List (Fl K) → User (List (Fl K))

/-- `problem::fitness`, src/problem.cpp 353-379 (without the counter). -/
def Inner.fitness (p : Inner K) (dv : List (Fl K)) : Outcome (List (Fl K)) := do
  checkLen p.prob.nx dv
  let f ← ofUser (p.user dv)
  checkLen p.prob.nf f
  .ok f

/-- `problem::batch_fitness`, src/problem.cpp 413-426 (without the counter). -/
def Inner.batch (p : Inner K) (dvs : List (Fl K)) : Outcome (List (Fl K)) := do
  checkInput p.prob.nx dvs
  let fvs ← ofUser (p.ubatch dvs)
  checkOutput p.prob.nx p.prob.nf dvs fvs
  .ok fvs

/-! ## translate -/

/-- `translate::generic_ctor_impl`, src/problems/translate.cpp 81-88. -/
def translateCtor (p : Inner K) (t : List (Fl K)) : Outcome Unit :=
  if t.length ≠ p.prob.nx then .throws .invalidArgument else .ok ()

/-- `std::transform(x.begin(), x.end(), t.begin(), x_sh.begin(), f)`: runs over the end of `t` if it is shorter. -/
def transform (f : Fl K → Fl K → Fl K) (x t : List (Fl K)) : Outcome (List (Fl K)) :=
  if t.length < x.length then .ub else .ok (List.zipWith f x t)

/-- `translate::translate_back`, src/problems/translate.cpp 409-419 (the assertion is inactive in release builds). -/
def translateBack (op : Fl.Ops K) (t x : List (Fl K)) : Outcome (List (Fl K)) := transform op.sub x t

/-- `translate::apply_translation`, src/problems/translate.cpp 421-427. -/
def applyTranslation (op : Fl.Ops K) (t x : List (Fl K)) : Outcome (List (Fl K)) := transform op.add x t

/-- `translate::fitness`, src/problems/translate.cpp 101-105. -/
def translateFitness (op : Fl.Ops K) (p : Inner K) (t x : List (Fl K)) : Outcome (List (Fl K)) := do
  let y ← translateBack op t x
  p.fitness y

/-- `translate::get_bounds`, src/problems/translate.cpp 176-182. -/
def translateBounds (op : Fl.Ops K) (p : Inner K) (t : List (Fl K)) : Outcome (List (Fl K) × List (Fl K)) := do
  let l ← applyTranslation op t p.prob.lb
  let u ← applyTranslation op t p.prob.ub
  .ok (l, u)

/-- Writing a block of values into a vector, starting at `pos`. -/
def writeBlock (ret : List (Fl K)) (pos : Nat) : List (Fl K) → Outcome (List (Fl K))
  | [] => .ok ret
  | v :: vs => do
    let ret ← Outcome.set ret pos v
    writeBlock ret (pos + 1) vs

/-- The parallel loop of `translate::batch_fitness`, src/problems/translate.cpp 130-145. The order in which the chunks
are handled is arbitrary (`order`); chunks write to disjoint parts, so that running one after the other is no
restriction. -/
def deshift (op : Fl.Ops K) (nx : Nat) (t xs : List (Fl K)) (order : List Nat) : Outcome (List (Fl K)) :=
  order.foldlM (fun ret i => do
    let x ← Bfe.slice xs (i * nx) nx
    let y ← transform op.sub x t
    writeBlock ret (i * nx) y) (List.replicate xs.length op.zero)

/-- `translate::batch_fitness`, src/problems/translate.cpp 119-158, in release mode: the inner member function is
called without checks. -/
def translateBatch (op : Fl.Ops K) (p : Inner K) (t xs : List (Fl K)) (order : List Nat) : Outcome (List (Fl K)) := do
  let ys ← deshift op p.prob.nx t xs order
  ofUser (p.ubatch ys)

/-- The problem a `translate` object looks like from outside (src/problems/translate.cpp 101-105, 176-216): shifted
bounds, the inner dimensions. -/
def translateUdp (op : Fl.Ops K) (p : Inner K) (t : List (Fl K)) : Outcome (Udp K) := do
  let b ← translateBounds op p t
  .ok { lb := b.1, ub := b.2, nix := p.prob.nix, nobj := p.prob.nobj, nec := p.prob.nec, nic := p.prob.nic,
        gs := none, hs := none }

/-- An outcome as the result of user code (undefined behaviour is mapped to some exception; it does not occur for a
translation vector of the right size, see `Verif.Props.C23_fitness`). -/
def toUser {α : Type} : Outcome α → User α
  | .ok a => .ok a
  | .throws e => .error e
  | _ => .error (.user 0)

/-- A `problem` holding a `translate` object (exact copies of the inner dimensions), to be translated again. -/
def translated (op : Fl.Ops K) (p : Inner K) (t : List (Fl K)) : Inner K where
  prob := { p.prob with lb := List.zipWith op.add p.prob.lb t, ub := List.zipWith op.add p.prob.ub t }
  user := fun x => toUser (translateFitness op p t x)
  ubatch := fun xs => toUser (translateBatch op p t xs (List.range (xs.length / p.prob.nx)))

/-! ## unconstrain -/

/-- `method_type`, include/pagmo/problems/unconstrain.hpp -/
inductive Method where
  | death
  | kuri
  | weighted
  | ignoreC
  | ignoreO
  deriving DecidableEq

/-- The map of method names, src/problems/unconstrain.cpp 93-98. -/
def methodOf (s : String) : Option Method :=
  if s = "death penalty" then some .death
  else if s = "kuri" then some .kuri
  else if s = "weighted" then some .weighted
  else if s = "ignore_c" then some .ignoreC
  else if s = "ignore_o" then some .ignoreO
  else none

/-- `unconstrain::generic_ctor_impl`, src/problems/unconstrain.cpp 67-100: the stored method. -/
def unconstrainCtor (p : Inner K) (method : String) (weights : List (Fl K)) : Outcome Method :=
  let nc := p.prob.nec + p.prob.nic
  if nc = 0 then .throws .invalidArgument
  else if weights.length ≠ nc ∧ method = "weighted" then .throws .invalidArgument
  else match methodOf method with
    | none => .throws .invalidArgument
    | some m => if weights.length ≠ 0 ∧ method ≠ "weighted" then .throws .invalidArgument else .ok m

variable [Field K] [LinearOrder K]

/-- Loop adding up the weighted violations, src/problems/unconstrain.cpp 185-199 (the two loops of the code in one; `i`
counts the constraints). -/
def weightedPenalty (nec : Nat) : Nat → List (Fl K) → List (Fl K) → List (Fl K) → Fl K → Outcome (Fl K)
  | _, [], _, _, acc => .ok acc
  | i, c :: cs, t :: ts, w :: ws, acc =>
    let v := Fl.sub (if i < nec then Fl.abs c else c) t
    weightedPenalty nec (i + 1) cs ts ws (if !(Fl.le v (.fin 0)) then Fl.add acc (Fl.mul w v) else acc)
  | _, _, _, _, _ => .ub

/-- `unconstrain::penalize`, src/problems/unconstrain.cpp 131-223. Exact arithmetic; `big` is
`std::numeric_limits<double>::max()`, `sq` is `std::sqrt`. -/
def penalize (sq : Fl K → Fl K) (big : K) (p : Problem K) (m : Method) (w f : List (Fl K)) : Outcome (List (Fl K)) :=
  if f.length < p.nobj then .ub
  else match m with
    | .death => do
      let ok ← Con.feasibilityF sq p.nobj p.nec p.nic p.cTol f
      .ok (if ok then f.take p.nobj else List.replicate p.nobj (.fin big))
    | .kuri => do
      let ok ← Con.feasibilityF sq p.nobj p.nec p.nic p.cTol f
      if ok then .ok (f.take p.nobj)
      else do
        let e ← Con.testCons sq true ((f.drop p.nobj).take p.nec) p.cTol
        let i ← Con.testCons sq false (f.drop (p.nobj + p.nec)) (p.cTol.drop p.nec)
        .ok (List.replicate p.nobj
          (.fin (big * (1 - ((e.1 + i.1 : Nat) : K) / ((p.nec + p.nic : Nat) : K)))))
    | .weighted => do
      let pen ← weightedPenalty p.nec 0 ((f.drop p.nobj).take (p.nec + p.nic)) p.cTol w (.fin 0)
      .ok ((f.take p.nobj).map (fun v => Fl.add v pen))
    | .ignoreC => .ok (f.take p.nobj)
    | .ignoreO => do
      let e ← Con.testCons sq true ((f.drop p.nobj).take p.nec) p.cTol
      let i ← Con.testCons sq false (f.drop (p.nobj + p.nec)) (p.cTol.drop p.nec)
      .ok [Fl.add e.2 i.2]

/-- `unconstrain::fitness`, src/problems/unconstrain.cpp 112-119. -/
def unconstrainFitness (sq : Fl K → Fl K) (big : K) (p : Inner K) (m : Method) (w x : List (Fl K)) :
    Outcome (List (Fl K)) := do
  let f ← p.fitness x
  penalize sq big p.prob m w f

/-- `unconstrain::get_nobj`, src/problems/unconstrain.cpp 270-277. -/
def unconstrainNobj (p : Problem K) (m : Method) : Nat := if m ≠ .ignoreO then p.nobj else 1

/-- The body of the loop of `unconstrain::batch_fitness`, src/problems/unconstrain.cpp 257-261. -/
def batchStep (sq : Fl K → Fl K) (big : K) (p : Problem K) (m : Method) (w orig ret : List (Fl K)) (i : Nat) :
    Outcome (List (Fl K)) := do
  let y ← Bfe.slice orig (i * p.nf) p.nf
  let z ← penalize sq big p m w y
  let v ← Bfe.slice z 0 p.nobj
  writeBlock ret (i * p.nobj) v

/-- `unconstrain::batch_fitness`, src/problems/unconstrain.cpp 245-263. The overflow check of the size of the result
is left out: `n_dvs * nobj` is at most the size of the vector of the original fitnesses. -/
def unconstrainBatch (sq : Fl K → Fl K) (big : K) (p : Inner K) (m : Method) (w xs : List (Fl K)) :
    Outcome (List (Fl K)) := do
  let orig ← p.batch xs
  let n := xs.length / p.prob.nx
  (List.range n).foldlM (batchStep sq big p.prob m w orig) (List.replicate (n * p.prob.nobj) (.fin 0))

/-! ## decompose -/

/-- `std::abs(sum - 1.0) > 1E-8`, `tol` is `1E-8`. -/
def notNormalised (op : Fl.Ops K) (tol : Fl K) (w : List (Fl K)) : Bool :=
  Fl.gt (Fl.abs (op.sub (w.foldl op.add op.zero) op.one)) tol

/-- `decompose::generic_ctor_impl`, src/problems/decompose.cpp 66-122. -/
def decomposeCtor (op : Fl.Ops K) (tol : Fl K) (p : Problem K) (w z : List (Fl K)) (method : String) : Outcome Unit :=
  if p.nobj < 2 then .throws .invalidArgument
  else if p.nec + p.nic ≠ 0 then .throws .invalidArgument
  else if method ≠ "weighted" ∧ method ≠ "tchebycheff" ∧ method ≠ "bi" then .throws .invalidArgument
  else if w.length ≠ p.nobj then .throws .invalidArgument
  else if w.any (fun a => !a.isFinite) then .throws .invalidArgument
  else if z.length ≠ p.nobj then .throws .invalidArgument
  else if z.any (fun a => !a.isFinite) then .throws .invalidArgument
  else if notNormalised op tol w then .throws .invalidArgument
  else if w.any (fun a => Fl.lt a op.zero) then .throws .invalidArgument
  else .ok ()

/-- Constants of a `decompose` object and of the numeric environment. -/
structure Decomp (K : Type) where
  op : Fl.Ops K
  sq : Fl K → Fl K
  eps : Fl K
  theta : Fl K
  inner : Inner K
  weight : List (Fl K)
  method : String
  adapt : Bool

/-- One iteration of the loop that updates the reference point, src/problems/decompose.cpp 141-145. -/
def adaptAt (f z : List (Fl K)) (i : Nat) : Outcome (List (Fl K)) := do
  let fi ← Outcome.get f i
  let zi ← Outcome.get z i
  if Fl.lt fi zi then Outcome.set z i fi else .ok z

/-- The loop, src/problems/decompose.cpp 140-146. -/
def adaptZ (adapt : Bool) (f z : List (Fl K)) : Outcome (List (Fl K)) :=
  if adapt then (List.range f.length).foldlM (adaptAt f) z else .ok z

/-- `decompose::fitness`, src/problems/decompose.cpp 135-149: the state is `m_z` (mutable). -/
def Decomp.fitness (d : Decomp K) (x : List (Fl K)) : Run (List (Fl K)) (List (Fl K)) := fun z =>
  match d.inner.fitness x with
  | .ok f =>
    match adaptZ d.adapt f z with
    | .ok z' => (Verif.Dec.decomposeObjectives d.op d.sq d.eps d.theta f d.weight z' d.method, z')
    | .throws e => (.throws e, z)
    | .ub => (.ub, z)
    | .nofuel => (.nofuel, z)
  | .throws e => (.throws e, z)
  | .ub => (.ub, z)
  | .nofuel => (.nofuel, z)

/-- `get_z()` after a sequence of calls of `fitness()` on one object; exceptions are caught by the caller. -/
def Decomp.calls (d : Decomp K) : List (List (Fl K)) → List (Fl K) → List (Fl K)
  | [], z => z
  | x :: xs, z => d.calls xs (d.fitness x z).2

/-! ### Concurrent calls of `decompose::fitness` on one object -/

/-- A call in progress. `f` is the fitness of the inner problem (computed from private data). -/
inductive Pc (K : Type) where
  /-- about to read `m_z[i]` for the comparison -/
  | load (i : Nat)
  /-- about to write `m_z[i]`, the comparison was true -/
  | store (i : Nat)
  /-- reading `m_z` for the decomposition: values read so far -/
  | read (zs : List (Fl K))
  /-- returned with this outcome -/
  | done (r : Outcome (List (Fl K)))
  deriving DecidableEq

/-- A concurrent call. -/
structure Caller (K : Type) where
  f : List (Fl K)
  pc : Pc K
  deriving DecidableEq

/-- One atomic memory access of a call, on the shared `m_z`. -/
def Caller.step (d : Decomp K) (z : List (Fl K)) (c : Caller K) : List (Fl K) × Caller K :=
  match c.pc with
  | .load i =>
    match c.f[i]?, z[i]? with
    | some fi, some zi => if Fl.lt fi zi then (z, { c with pc := .store i }) else (z, { c with pc := .load (i + 1) })
    | some _, none => (z, { c with pc := .done .ub })
    | none, _ => (z, { c with pc := .read [] })
  | .store i =>
    match c.f[i]? with
    | some fi => (z.set i fi, { c with pc := .load (i + 1) })
    | none => (z, { c with pc := .done .ub })
  | .read zs =>
    match z[zs.length]? with
    | some v => (z, { c with pc := .read (zs ++ [v]) })
    | none => (z, { c with pc := .done (Verif.Dec.decomposeObjectives d.op d.sq d.eps d.theta c.f d.weight zs d.method) })
  | .done _ => (z, c)

/-- Start of a call. -/
def Caller.start (d : Decomp K) (f : List (Fl K)) : Caller K := { f := f, pc := if d.adapt then .load 0 else .read [] }

/-- All calls under a schedule. -/
def runCallers (d : Decomp K) : List Nat → List (Fl K) × List (Caller K) → List (Fl K) × List (Caller K)
  | [], s => s
  | i :: is, (z, cs) =>
    match cs[i]? with
    | none => runCallers d is (z, cs)
    | some c => runCallers d is ((c.step d z).1, cs.set i (c.step d z).2)

/-- `decompose::get_thread_safety`, src/problems/decompose.cpp 258-261. -/
def decomposeSafety (inner : Bfe.Safety) : Bfe.Safety := inner

/-! ## golomb_ruler -/

omit [Field K] [LinearOrder K] in
/-- `golomb_ruler::golomb_ruler`, src/problems/golomb_ruler.cpp 48-65. -/
def golombCtor (order upper : Nat) : Outcome Unit :=
  if order < 2 then .throws .invalidArgument
  else if upper < 2 then .throws .invalidArgument
  else if upper > (2 ^ 32 - 1) / (order - 1) then .throws .overflowError
  else .ok ()

/-- `std::partial_sum` -/
def partialSum (op : Fl.Ops K) : List (Fl K) → List (Fl K)
  | [] => []
  | x :: xs => x :: go x xs
where
  /-- the rest, with the running sum -/
  go (acc : Fl K) : List (Fl K) → List (Fl K)
    | [] => []
    | x :: xs => op.add acc x :: go (op.add acc x) xs

/-- The ticks, src/problems/golomb_ruler.cpp 79-80. -/
def ticks (op : Fl.Ops K) (x : List (Fl K)) : List (Fl K) := op.zero :: partialSum op x

/-- The distances pushed by the double loop, src/problems/golomb_ruler.cpp 85-89. -/
def distances (op : Fl.Ops K) (ts : List (Fl K)) : Outcome (List (Fl K)) :=
  (List.range (ts.length - 1)).foldlM (fun ds i =>
    (List.range' (i + 1) (ts.length - (i + 1))).foldlM (fun ds j => do
      let a ← Outcome.get ts j
      let b ← Outcome.get ts i
      .ok (ds ++ [op.sub a b])) ds) []

/-- `std::unique` with `equal_to_f`: what is left of the range. -/
def unique : List (Fl K) → List (Fl K)
  | [] => []
  | x :: xs => x :: go x xs
where
  /-- the rest, given the last value kept -/
  go (prev : Fl K) : List (Fl K) → List (Fl K)
    | [] => []
    | x :: xs => if Fl.equalToF prev x then go prev xs else x :: go x xs

/-- `golomb_ruler::fitness`, src/problems/golomb_ruler.cpp 75-97. Counts are kept as integers: their conversion to
double is exact below 2^53. -/
def golombFitness (srt : (Fl K → Fl K → Bool) → List (Fl K) → List (Fl K)) (op : Fl.Ops K) (x : List (Fl K)) :
    Outcome (Fl K × Int) := do
  let ts := ticks op x
  let ds ← distances op ts
  let s ← stdSort srt Fl.lessThanF ds
  .ok (ts.getLastD op.zero, (ds.length : Int) - ((unique s).length : Int))

end Verif.Meta
