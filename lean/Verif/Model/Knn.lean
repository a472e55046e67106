import Verif.Base.FlArith
import Verif.Base.Sort

/-!
# Model of `kNN`, src/utils/generic.cpp 107-148
-/

set_option autoImplicit false

namespace Verif.Knn

open Verif Outcome

variable {K : Type} [LinearOrder K]

/-- Distance between points `i` and `j`, src/utils/generic.cpp 123-127. `op` is the arithmetic, `sq` is
`std::sqrt`; every read is bounds checked. -/
def knnDist (op : Fl.Ops K) (sq : Fl K → Fl K) (pts : List (List (Fl K))) (M i j : Nat) :
    Outcome (Fl K) := do
  let d ← (List.range M).foldlM (fun acc l => do
    let pi ← Outcome.get pts i
    let a ← Outcome.get pi l
    let pj ← Outcome.get pts j
    let b ← Outcome.get pj l
    Outcome.ok (op.add acc (op.mul (op.sub a b) (op.sub a b)))) op.zero
  Outcome.ok (sq d)

/-- Comparator handed to std::sort, src/utils/generic.cpp 132-134. The indices it is called with are the
elements of `idxs`, which are in range; the default value is never used. -/
def knnCmp (dist : List (Fl K)) (a b : Nat) : Bool :=
  Fl.lessThanF (dist.getD a .nan) (dist.getD b .nan)

/-- `kNN`, src/utils/generic.cpp 107-148; `srt` is std::sort. `static_cast<int>(k)` (line 143) is out of
range of `int` for `k ≥ 2^31`; that case is treated as undefined. -/
def knn (op : Fl.Ops K) (sq : Fl K → Fl K) (srt : (Nat → Nat → Bool) → List Nat → List Nat)
    (pts : List (List (Fl K))) (k : Nat) : Outcome (List (List Nat)) :=
  match pts with
  | [] => .ok []
  | p0 :: _ =>
    if !pts.all (fun p => p.length == p0.length) then .throws .invalidArgument
    else do
      let lists ← (List.range pts.length).mapM (fun i => do
        let dists ← (List.range pts.length).mapM (fun j => knnDist op sq pts p0.length i j)
        let idxs ← stdSort srt (knnCmp dists) (List.range pts.length)
        Outcome.ok (idxs.filter (fun j => j != i)))
      if k < pts.length - 1 then
        if k < 2 ^ 31 then Outcome.ok (lists.map (fun l => l.take k)) else Outcome.ub
      else Outcome.ok lists

end Verif.Knn
