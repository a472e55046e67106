import Verif.Base.FlArith
import Verif.Model.MultiObjective

/-!
# Model of src/utils/multi_objective.cpp (crowding distance, selection and sorting)

`op` is the arithmetic on doubles, `srt` is std::sort.
-/

set_option autoImplicit false

namespace Verif.MO

open Verif Outcome

variable {K : Type} [LinearOrder K]

/-- `points[a][i]` with undefined behaviour out of range. -/
def val (pts : List (List (Fl K))) (a i : Nat) : Outcome (Fl K) := do
  let p ← Outcome.get pts a
  Outcome.get p i

/-- Comparator of the sort by objective `i`, src/utils/multi_objective.cpp 303-305. Indices out of range
(they do not occur) compare false. -/
def crowdCmp (pts : List (List (Fl K))) (i a b : Nat) : Bool :=
  match val pts a i, val pts b i with
  | .ok x, .ok y => Fl.lessThanF x y
  | _, _ => false

/-- Body of the loop over the inner points, src/utils/multi_objective.cpp 309-311, `j = j0 + 1`. -/
def crowdStep (op : Fl.Ops K) (pts : List (List (Fl K))) (idx : List Nat) (i : Nat) (df : Fl K)
    (ret : List (Fl K)) (j0 : Nat) : Outcome (List (Fl K)) := do
  let c ← Outcome.get idx (j0 + 1)
  let nx ← Outcome.get idx (j0 + 2)
  let pv ← Outcome.get idx j0
  let vn ← val pts nx i
  let vp ← val pts pv i
  modifyAt ret c (fun x => op.add x (op.div (op.sub vn vp) df))

/-- One objective, src/utils/multi_objective.cpp 302-312. State: the indices as left by the previous
sort and the accumulated distances. -/
def crowdPass (op : Fl.Ops K) (srt : (Nat → Nat → Bool) → List Nat → List Nat)
    (pts : List (List (Fl K))) (s : List Nat × List (Fl K)) (i : Nat) :
    Outcome (List Nat × List (Fl K)) := do
  let idx ← stdSort srt (crowdCmp pts i) s.1
  let a ← Outcome.get idx 0
  let b ← Outcome.get idx (pts.length - 1)
  let ret ← Outcome.set s.2 a .pinf
  let ret ← Outcome.set ret b .pinf
  let vb ← val pts b i
  let va ← val pts a i
  let ret ← (List.range (pts.length - 2)).foldlM (crowdStep op pts idx i (op.sub vb va)) ret
  pure (idx, ret)

/-- `crowding_distance`, src/utils/multi_objective.cpp 280-315. -/
def crowdingDistance (op : Fl.Ops K) (srt : (Nat → Nat → Bool) → List Nat → List Nat)
    (pts : List (List (Fl K))) : Outcome (List (Fl K)) :=
  if pts.length < 2 then .throws .invalidArgument
  else do
    let p0 ← Outcome.get pts 0
    if p0.length < 2 then .throws .invalidArgument
    else if !pts.all (fun p => p.length == p0.length) then .throws .invalidArgument
    else
      let s ← (List.range p0.length).foldlM (crowdPass op srt pts)
        (List.range pts.length, List.replicate pts.length op.zero)
      pure s.2

/-- Loop inserting whole fronts, src/utils/multi_objective.cpp 366-378. Result: the indices kept and
either `none` (return right away) or the fronts from the first one not inserted on. -/
def takeFronts (n : Nat) : List (List Nat) → List Nat → List Nat × Option (List (List Nat))
  | [], ret => (ret, some [])
  | f :: fs, ret =>
    if ret.length + f.length ≤ n then
      if (ret ++ f).length = n then (ret ++ f, none) else takeFronts n fs (ret ++ f)
    else (ret, some (f :: fs))

/-- Comparator of src/utils/multi_objective.cpp 389-391 (descending crowding distance). -/
def cdGreater (cds : List (Fl K)) (a b : Nat) : Bool :=
  match cds[a]?, cds[b]? with
  | some x, some y => Fl.greaterThanF x y
  | _, _ => false

/-- `select_best_N_mo`, src/utils/multi_objective.cpp 344-396. -/
def selectBestNMo (op : Fl.Ops K) (srt : (Nat → Nat → Bool) → List Nat → List Nat)
    (pts : List (List (Fl K))) (n : Nat) : Outcome (List Nat) :=
  if n = 0 then .ok []
  else if pts.length = 0 then .ok []
  else if pts.length = 1 then .ok [0]
  else if n ≥ pts.length then .ok (List.range pts.length)
  else do
    let t ← fnds pts
    match takeFronts n t.fronts [] with
    | (ret, none) => pure ret
    | (ret, some fs) =>
      let front ← Outcome.get fs 0
      let fits ← front.mapM (fun i => Outcome.get pts i)
      let cds ← crowdingDistance op srt fits
      let idxs ← stdSort srt (cdGreater cds) (List.range front.length)
      (List.range (n - ret.length)).foldlM (init := ret) fun r i => do
        let k ← Outcome.get idxs i
        let x ← Outcome.get front k
        pure (r ++ [x])

/-- Crowding distances of one front written into the array for all points,
src/utils/multi_objective.cpp 442-454. -/
def crowdFront (op : Fl.Ops K) (srt : (Nat → Nat → Bool) → List Nat → List Nat)
    (pts : List (List (Fl K))) (cr : List (Fl K)) (front : List Nat) : Outcome (List (Fl K)) :=
  if front.length = 1 then do
    let x ← Outcome.get front 0
    Outcome.set cr x op.zero
  else do
    let fits ← front.mapM (fun i => Outcome.get pts i)
    let tmp ← crowdingDistance op srt fits
    (List.range front.length).foldlM (init := cr) fun cr i => do
      let x ← Outcome.get front i
      let v ← Outcome.get tmp i
      Outcome.set cr x v

/-- Comparator of src/utils/multi_objective.cpp 457-463. -/
def moLess (rank : List Nat) (cr : List (Fl K)) (a b : Nat) : Bool :=
  match rank[a]?, rank[b]?, cr[a]?, cr[b]? with
  | some ra, some rb, some ca, some cb => if ra = rb then Fl.greaterThanF ca cb else decide (ra < rb)
  | _, _, _, _ => false

/-- `sort_population_mo`, src/utils/multi_objective.cpp 425-465. -/
def sortPopulationMo (op : Fl.Ops K) (srt : (Nat → Nat → Bool) → List Nat → List Nat)
    (pts : List (List (Fl K))) : Outcome (List Nat) :=
  if pts.length = 0 then .ok []
  else if pts.length = 1 then .ok [0]
  else do
    let t ← fnds pts
    let cr ← t.fronts.foldlM (crowdFront op srt pts) (List.replicate pts.length op.zero)
    stdSort srt (moLess t.rank cr) (List.range pts.length)

end Verif.MO
