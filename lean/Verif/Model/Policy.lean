import Verif.Model.Problem
import Verif.Model.Constrained
import Verif.Model.Crowding

/-!
# Model of the migration policies: src/r_policy.cpp, src/s_policy.cpp, src/r_policies/fair_replace.cpp,
src/s_policies/select_best.cpp, src/detail/base_sr_policy.cpp
-/

set_option autoImplicit false

namespace Verif.Pol

open Verif Prob Con MO

variable {K : Type}

/-- `individuals_group_t`: IDs, decision vectors, fitness vectors. -/
structure Inds (K : Type) where
  ids : List Nat
  dvs : List (List (Fl K))
  fvs : List (List (Fl K))
  deriving DecidableEq

/-- `push_back` on the three vectors -/
def Inds.push (g : Inds K) (id : Nat) (dv fv : List (Fl K)) : Inds K :=
  ⟨g.ids ++ [id], g.dvs ++ [dv], g.fvs ++ [fv]⟩

/-- The loop `for (i = 0; i < n; ++i) dst.push_back(src[idx[i]])` on the three vectors, src/r_policies/fair_replace.cpp
130-134, 151-155, 168-172 and so on, src/s_policies/select_best.cpp likewise -/
def pick (src : Inds K) (idx : List Nat) (n : Nat) (dst : Inds K) : Outcome (Inds K) :=
  (List.range n).foldlM (init := dst) fun d i => do
    let k ← Outcome.get idx i
    let id ← Outcome.get src.ids k
    let dv ← Outcome.get src.dvs k
    let fv ← Outcome.get src.fvs k
    .ok (d.push id dv fv)

section
variable [Field K] [LinearOrder K]

/-- `m_migr_rate`: absolute or fractional. -/
inductive Rate (K : Type) where
  | abs (n : Nat)
  | frac (x : Fl K)

/-- `base_sr_policy::base_sr_policy(double)` with `verify_fp_ctor`, src/detail/base_sr_policy.cpp 54-66. -/
def ctorFrac (x : Fl K) : Outcome (Rate K) :=
  if !x.isFinite || Fl.lt x (.fin 0) || Fl.gt x (.fin 1) then .throws .invalidArgument else .ok (.frac x)

/-- `base_sr_policy::base_sr_policy(integer)`, include/pagmo/detail/base_sr_policy.hpp 61-63: `boost::numeric_cast`
to an unsigned 64-bit type. -/
def ctorAbs (n : ℤ) : Outcome (Rate K) :=
  if n < 0 ∨ 2 ^ 64 ≤ n then .throws .badCast else .ok (.abs n.toNat)

/-- `boost::numeric_cast<pop_size_t>(double)`: truncation, an exception out of range. -/
def numericCast [FloorRing K] : Fl K → Outcome Nat
  | .fin k => if -1 < k ∧ k < ((2 ^ 64 : Nat) : K) then .ok ⌊k⌋.toNat else .throws .badCast
  | _ => .throws .badCast

/-- The number of individuals given by the rate, src/r_policies/fair_replace.cpp 81-103,
src/s_policies/select_best.cpp 78-99; `toD` is the conversion to double. -/
def candidate [FloorRing K] (op : Fl.Ops K) (toD : Nat → Fl K) (size : Nat) : Rate K → Outcome Nat
  | .frac x => do
    let n ← numericCast (op.mul x (toD size))
    .ok (min n size)
  | .abs n => if n > size then .throws .invalidArgument else .ok n

/-- Comparator of the unconstrained single-objective sorts, src/r_policies/fair_replace.cpp 123-125, 142-145,
src/s_policies/select_best.cpp likewise. -/
def firstLt (fvs : List (List (Fl K))) (i j : Nat) : Bool :=
  match fvs[i]?, fvs[j]? with
  | some (a :: _), some (b :: _) => Fl.lessThanF a b
  | _, _ => false

/-- The indirect sort of the unconstrained single-objective case. Reading the first element of an empty fitness vector
is undefined behaviour (also for a single individual, where the C++ comparator is not called; such vectors cannot get
past the policy wrappers). -/
def sortFirst (srt : (Nat → Nat → Bool) → List Nat → List Nat) (fvs : List (List (Fl K))) : Outcome (List Nat) :=
  if fvs.any List.isEmpty then .ub else stdSort srt (firstLt fvs) (List.range fvs.length)

/-- The order in which individuals are taken: the three branches of `fair_replace::replace` and
`select_best::select`. -/
def order (op : Fl.Ops K) (srt : (Nat → Nat → Bool) → List Nat → List Nat) (sq : Fl K → Fl K) (nobj nec nic : Nat)
    (tol : List (Fl K)) (fvs : List (List (Fl K))) (n : Nat) : Outcome (List Nat) :=
  if nobj = 1 ∧ nic = 0 ∧ nec = 0 then sortFirst srt fvs
  else if nobj = 1 then sortPopulationCon srt sq fvs nec tol
  else selectBestNMo op srt fvs n

/-- `fair_replace::replace`, src/r_policies/fair_replace.cpp 63-221. -/
def fairReplace [FloorRing K] (op : Fl.Ops K) (toD : Nat → Fl K) (srt : (Nat → Nat → Bool) → List Nat → List Nat)
    (sq : Fl K → Fl K) (rate : Rate K) (inds : Inds K) (nobj nec nic : Nat) (tol : List (Fl K)) (mig : Inds K) :
    Outcome (Inds K) :=
  if nobj > 1 ∧ (nic ≠ 0 ∨ nec ≠ 0) then .throws .invalidArgument
  else do
    let c ← candidate op toD inds.dvs.length rate
    let nMigr := min c mig.dvs.length
    let migIdx ← order op srt sq nobj nec nic tol mig.fvs nMigr
    let merged ← pick mig migIdx nMigr inds
    let mergedIdx ← order op srt sq nobj nec nic tol merged.fvs inds.dvs.length
    pick merged mergedIdx inds.dvs.length ⟨[], [], []⟩

/-- `select_best::select`, src/s_policies/select_best.cpp 63-172. -/
def selectBest [FloorRing K] (op : Fl.Ops K) (toD : Nat → Fl K) (srt : (Nat → Nat → Bool) → List Nat → List Nat)
    (sq : Fl K → Fl K) (rate : Rate K) (inds : Inds K) (nobj nec nic : Nat) (tol : List (Fl K)) :
    Outcome (Inds K) :=
  if nobj > 1 ∧ (nic ≠ 0 ∨ nec ≠ 0) then .throws .invalidArgument
  else do
    let nMigr ← candidate op toD inds.dvs.length rate
    let idx ← order op srt sq nobj nec nic tol inds.fvs nMigr
    pick inds idx nMigr ⟨[], [], []⟩

end

/-- sizes of the three vectors agree -/
def sameSizes (g : Inds K) : Outcome Unit :=
  if g.ids.length ≠ g.dvs.length ∨ g.ids.length ≠ g.fvs.length then .throws .invalidArgument else .ok ()

/-- all vectors have length `n` -/
def allLen (vs : List (List (Fl K))) (n : Nat) : Outcome Unit :=
  if vs.any (fun v => decide (v.length ≠ n)) then .throws .invalidArgument else .ok ()

/-- Step 3 of `verify_replace_input`, src/r_policy.cpp 112-150; the same checks in `verify_select_input`,
src/s_policy.cpp 105-143. -/
def checkDims (nx nix nobj nec nic : Nat) (tol : List (Fl K)) : Outcome Unit :=
  if nx = 0 then .throws .invalidArgument
  else if nix > nx then .throws .invalidArgument
  else if nobj = 0 then .throws .invalidArgument
  else if nobj > sizeMax / 3 then .throws .invalidArgument
  else if nec > sizeMax / 3 then .throws .invalidArgument
  else if nic > sizeMax / 3 then .throws .invalidArgument
  else if tol.length ≠ w64 (nec + nic) then .throws .invalidArgument
  else .ok ()

/-- `r_policy::verify_replace_input`, src/r_policy.cpp 87-176. -/
def verifyReplaceInput (inds : Inds K) (nx nix nobj nec nic : Nat) (tol : List (Fl K)) (mig : Inds K) :
    Outcome Unit := do
  sameSizes inds
  sameSizes mig
  checkDims nx nix nobj nec nic tol
  let nf := w64 (nobj + nec + nic)
  allLen inds.dvs nx
  allLen inds.fvs nf
  allLen mig.dvs nx
  allLen mig.fvs nf

/-- `r_policy::verify_replace_output`, src/r_policy.cpp 179-207; `s_policy::verify_select_output`, src/s_policy.cpp
162-190. -/
def verifyOutput (r : Inds K) (nx nf : Nat) : Outcome Unit := do
  sameSizes r
  allLen r.dvs nx
  allLen r.fvs nf

/-- `r_policy::replace`, src/r_policy.cpp 210-227; `user` is the user-defined policy. -/
def rPolicyReplace (user : Inds K → Nat → Nat → Nat → Nat → Nat → List (Fl K) → Inds K → Outcome (Inds K))
    (inds : Inds K) (nx nix nobj nec nic : Nat) (tol : List (Fl K)) (mig : Inds K) : Outcome (Inds K) := do
  verifyReplaceInput inds nx nix nobj nec nic tol mig
  let r ← user inds nx nix nobj nec nic tol mig
  verifyOutput r nx (w64 (nobj + nec + nic))
  .ok r

/-- `s_policy::verify_select_input`, src/s_policy.cpp 90-159. -/
def verifySelectInput (inds : Inds K) (nx nix nobj nec nic : Nat) (tol : List (Fl K)) : Outcome Unit := do
  sameSizes inds
  checkDims nx nix nobj nec nic tol
  let nf := w64 (nobj + nec + nic)
  allLen inds.dvs nx
  allLen inds.fvs nf

/-- `s_policy::select`, src/s_policy.cpp 193-210. -/
def sPolicySelect (user : Inds K → Nat → Nat → Nat → Nat → Nat → List (Fl K) → Outcome (Inds K))
    (inds : Inds K) (nx nix nobj nec nic : Nat) (tol : List (Fl K)) : Outcome (Inds K) := do
  verifySelectInput inds nx nix nobj nec nic tol
  let r ← user inds nx nix nobj nec nic tol
  verifyOutput r nx (w64 (nobj + nec + nic))
  .ok r

end Verif.Pol
