import Verif.Base.Outcome
import Verif.Model.S11n

/-!
# Model of the serialization of Eigen matrices

include/pagmo/detail/eigen_s11n.hpp, used by `cmaes` and `xnes` for their memory.
-/

set_option autoImplicit false

namespace Verif.EigenS11n

open Verif Verif.S11n

/-- `Eigen::Matrix` of dynamic size with its storage by columns. What Eigen does is not checked against its source. -/
structure EMat (α : Type) where
  rows : Nat
  cols : Nat
  data : List α
  deriving DecidableEq

variable {α : Type}

/-- a matrix whose storage has the right size -/
def EMat.Valid (m : EMat α) : Prop := m.data.length = m.rows * m.cols

/-- the pairs of indices in the order of the two loops, eigen_s11n.hpp 52-53 and 68-69 -/
def cells (r c : Nat) : List (Nat × Nat) := (List.range r).flatMap fun i => (List.range c).map fun j => (i, j)

/-- `ar << cb(i, j)` for these indices, eigen_s11n.hpp 52-56; reading past the end is undefined behaviour -/
def saveCells (C : Codec α) (m : EMat α) : List (Nat × Nat) → Outcome (List Tok)
  | [] => .ok []
  | (i, j) :: l => do
    let a ← Outcome.get m.data (j * m.rows + i)
    let ts ← saveCells C m l
    .ok (C.save a ++ ts)

/-- `save`, eigen_s11n.hpp 43-57 -/
def save (C : Codec α) (m : EMat α) : Outcome (List Tok) := do
  let ts ← saveCells C m (cells m.rows m.cols)
  .ok (natC.save m.rows ++ natC.save m.cols ++ ts)

/-- `resize`: the storage is kept if its size is right, else it is new, with values `z` (in Eigen: not initialised) -/
def resize (z : α) (m : EMat α) (r c : Nat) : EMat α := ⟨r, c, if m.data.length = r * c then m.data else List.replicate (r * c) z⟩

/-- `ar >> cb(i, j)` for these indices, eigen_s11n.hpp 68-72; an archive that ends or holds something else leaves the matrix half loaded -/
def loadCells (C : Codec α) : EMat α → List (Nat × Nat) → List Tok → Outcome (Res (EMat α))
  | m, [], ts => .ok (.ok m ts)
  | m, (i, j) :: l, ts => do
    let old ← Outcome.get m.data (j * m.rows + i)
    match C.load old ts with
    | .fail a => do
      let d ← Outcome.set m.data (j * m.rows + i) a
      .ok (.fail { m with data := d })
    | .ok a rest => do
      let d ← Outcome.set m.data (j * m.rows + i) a
      loadCells C { m with data := d } l rest

/-- `load` into the matrix `m`, eigen_s11n.hpp 58-73 -/
def load (C : Codec α) (z : α) (m : EMat α) (ts : List Tok) : Outcome (Res (EMat α)) :=
  match natC.load 0 ts with
  | .fail _ => .ok (.fail m)
  | .ok r ts1 =>
    match natC.load 0 ts1 with
    | .fail _ => .ok (.fail m)
    | .ok c ts2 => loadCells C (resize z m r c) (cells r c) ts2

end Verif.EigenS11n
