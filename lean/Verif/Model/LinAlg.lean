import Verif.Model.Sga

/-!
# Vectors and matrices of Eigen

As they are used in src/algorithms/xnes.cpp and src/algorithms/cmaes.cpp. The sizes are part of the type. Eigen is not modelled:
sums are taken in the order of the indices and start with zero (Eigen may sum in another order and use fused operations).
-/

set_option autoImplicit false

namespace Verif.Alg

open Verif

variable {K σ : Type} [Field K] [LinearOrder K]

/-- `Eigen::VectorXd` with `n` coefficients -/
abbrev Vec (K : Type) (n : Nat) := Fin n → Fl K

/-- `Eigen::MatrixXd` with `n` rows and columns -/
abbrev Mat (K : Type) (n : Nat) := Fin n → Fin n → Fl K

/-- The first `n` coefficients of a `std::vector<double>`, as copied in xnes.cpp 194-196 and read in 189-191: undefined if there
are fewer. -/
def vecOf (n : Nat) (l : List (Fl K)) : Outcome (Vec K n) :=
  if h : n ≤ l.length then .ok (fun i => l[i.1]'(by omega)) else .ub

/-- the sum of the coefficients -/
def laSum (op : Fl.Ops K) {n : Nat} (x : Vec K n) : Fl K := (List.finRange n).foldl (fun s j => op.add s (x j)) op.zero

/-- matrix times vector -/
def laApply (op : Fl.Ops K) {n : Nat} (A : Mat K n) (z : Vec K n) : Vec K n := fun i => laSum op (fun j => op.mul (A i j) (z j))

/-- matrix times matrix -/
def laMul (op : Fl.Ops K) {n : Nat} (A B : Mat K n) : Mat K n := fun i j => laSum op (fun k => op.mul (A i k) (B k j))

/-- `.norm()`; `sq` is `std::sqrt` -/
def laNorm (op : Fl.Ops K) (sq : Fl K → Fl K) {n : Nat} (x : Vec K n) : Fl K := sq (laSum op (fun j => op.mul (x j) (x j)))

/-- `Eigen::MatrixXd::Identity(n, n)` -/
def laId (n : Nat) : Mat K n := fun i j => if i = j then .fin 1 else .fin 0

/-- `.trace()` -/
def laTrace (op : Fl.Ops K) {n : Nat} (A : Mat K n) : Fl K := laSum op (fun i => A i i)

/-- `n` numbers drawn from the normal distribution, in the order of the coefficients. xnes.cpp 224-226, cmaes.cpp 248-250 -/
def drawVec (d : Dist K σ) : (n : Nat) → Run σ (Vec K n)
  | 0 => pure (fun i => i.elim0)
  | n + 1 => do
    let z ← drawVec d n
    let a ← d.drawNormal
    pure (fun i => if h : i.1 < n then z ⟨i.1, h⟩ else a)

end Verif.Alg
