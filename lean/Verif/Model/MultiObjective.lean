import Verif.Base.Fl
import Verif.Base.Sort

/-!
# Model of src/utils/multi_objective.cpp (dominance, sorting, ideal, nadir)
-/

set_option autoImplicit false

namespace Verif.MO

open Verif Outcome

variable {K : Type} [LinearOrder K]

/-- `v[i] = f(v[i])`, undefined behaviour when out of range. -/
def modifyAt {α : Type} (l : List α) (i : Nat) (f : α → α) : Outcome (List α) := do
  let a ← Outcome.get l i
  Outcome.set l i (f a)

/-- Loop of `pareto_dominance`, src/utils/multi_objective.cpp 104-112. The third argument is the
variable `found_strictly_dominating_dimension`. -/
def pdLoop : List (Fl K) → List (Fl K) → Bool → Bool
  | a :: as, b :: bs, found =>
    if Fl.greaterThanF a b then false
    else if Fl.lessThanF a b then pdLoop as bs true
    else pdLoop as bs found
  | _, _, found => found

/-- `pareto_dominance`, src/utils/multi_objective.cpp 97-113. -/
def paretoDominance (a b : List (Fl K)) : Outcome Bool :=
  if a.length ≠ b.length then .throws .invalidArgument else .ok (pdLoop a b false)

/-- Inner loop over already kept points of `non_dominated_front_2d`,
src/utils/multi_objective.cpp 160-166: is some front member dominating point `i`? -/
def dominatedBySome (pts : List (List (Fl K))) (i : Nat) : List Nat → Outcome Bool
  | [] => .ok false
  | j :: js => do
    let pj ← Outcome.get pts j
    let pi ← Outcome.get pts i
    if ← paretoDominance pj pi then pure true else dominatedBySome pts i js

/-- Comparator passed to std::sort, src/utils/multi_objective.cpp 153-158. Points have two entries
there (checked before), reading entries 0 and 1 of shorter points is modelled by `none`, which never
occurs. -/
def cmp2d (pts : List (List (Fl K))) (a b : Nat) : Bool :=
  match pts[a]?, pts[b]? with
  | some [a0, a1], some [b0, b1] =>
    if Fl.equalToF a0 b0 then Fl.lessThanF a1 b1 else Fl.lessThanF a0 b0
  | _, _ => false

/-- `non_dominated_front_2d`, src/utils/multi_objective.cpp 130-172; `srt` is std::sort. -/
def nonDominatedFront2d (srt : (Nat → Nat → Bool) → List Nat → List Nat)
    (pts : List (List (Fl K))) : Outcome (List Nat) :=
  match pts with
  | [] => .ok []
  | p0 :: _ =>
    if !pts.all (fun p => p.length == p0.length) then .throws .invalidArgument
    else if p0.length ≠ 2 then .throws .invalidArgument
    else do
      let idx ← stdSort srt (cmp2d pts) (List.range pts.length)
      idx.foldlM (init := []) fun front i => do
        if ← dominatedBySome pts i front then pure front else pure (front ++ [i])

/-- Tuple returned by `fast_non_dominated_sorting`. -/
structure Fnds where
  fronts : List (List Nat)
  domList : List (List Nat)
  domCount : List Nat
  rank : List Nat
  deriving Repr, DecidableEq

/-- Body of the inner `j` loop, src/utils/multi_objective.cpp 219-225. -/
def fndsPair (pts : List (List (Fl K))) (i : Nat) (s : List (List Nat) × List Nat) (j : Nat) :
    Outcome (List (List Nat) × List Nat) := do
  let pi ← Outcome.get pts i
  let pj ← Outcome.get pts j
  if ← paretoDominance pi pj then
    let dl ← modifyAt s.1 i (· ++ [j])
    let dc ← modifyAt s.2 j (· + 1)
    pure (dl, dc)
  else if ← paretoDominance pj pi then
    let dl ← modifyAt s.1 j (· ++ [i])
    let dc ← modifyAt s.2 i (· + 1)
    pure (dl, dc)
  else pure s

/-- First double loop, src/utils/multi_objective.cpp 215-227. -/
def fndsBuild (pts : List (List (Fl K))) : Outcome (List (List Nat) × List Nat) :=
  (List.range pts.length).foldlM
    (init := (List.replicate pts.length [], List.replicate pts.length 0)) fun s i => do
      let dl ← Outcome.set s.1 i []
      let dc ← Outcome.set s.2 i 0
      (List.range i).foldlM (fndsPair pts i) (dl, dc)

/-- Second loop, src/utils/multi_objective.cpp 228-233: the first front. -/
def fndsFirst (n : Nat) (dc : List Nat) (rank : List Nat) : Outcome (List Nat × List Nat) :=
  (List.range n).foldlM (init := ([], rank)) fun s i => do
    let c ← Outcome.get dc i
    if c = 0 then
      let r ← Outcome.set s.2 i 0
      pure (s.1 ++ [i], r)
    else pure s

/-- Pre-decrement of an unsigned 64 bit counter (wraps at zero). -/
def dec64 (n : Nat) : Nat := if n = 0 then 2 ^ 64 - 1 else n - 1

/-- Body of the two inner loops of the peeling phase for one entry `x` of a domination list,
src/utils/multi_objective.cpp 242-246. State: next front, counters, ranks. -/
def fndsDec (k : Nat) (s : List Nat × List Nat × List Nat) (x : Nat) :
    Outcome (List Nat × List Nat × List Nat) := do
  let cc ← modifyAt s.2.1 x dec64
  let c ← Outcome.get cc x
  if c = 0 then
    let r ← Outcome.set s.2.2 x (k + 1)
    pure (s.1 ++ [x], cc, r)
  else pure (s.1, cc, s.2.2)

/-- One pass over the current front, src/utils/multi_objective.cpp 239-248. -/
def fndsPass (dl : List (List Nat)) (k : Nat) (cur : List Nat) (cc rank : List Nat) :
    Outcome (List Nat × List Nat × List Nat) :=
  cur.foldlM (init := ([], cc, rank)) fun s p => do
    let l ← Outcome.get dl p
    l.foldlM (fndsDec k) s

/-- The `while` loop, src/utils/multi_objective.cpp 238-254. -/
def fndsPeel (dl : List (List Nat)) : Nat → Nat → List Nat → List Nat → List Nat →
    List (List Nat) → Outcome (List (List Nat) × List Nat)
  | 0, _, _, _, _, _ => .nofuel
  | fuel + 1, k, cur, cc, rank, fronts =>
    if cur = [] then pure (fronts, rank)
    else do
      let (next, cc', rank') ← fndsPass dl k cur cc rank
      fndsPeel dl fuel (k + 1) next cc' rank' (if next = [] then fronts else fronts ++ [next])

/-- `fast_non_dominated_sorting`, src/utils/multi_objective.cpp 200-257. The fuel is shown to be
sufficient by the theorems (the outcome is never `nofuel`). -/
def fnds (pts : List (List (Fl K))) : Outcome Fnds :=
  if pts.length < 2 then .throws .invalidArgument
  else do
    let (dl, dc) ← fndsBuild pts
    let (f0, rank) ← fndsFirst pts.length dc (List.replicate pts.length 0)
    let (fronts, rank) ← fndsPeel dl (pts.length + 1) 0 f0 dc rank [f0]
    pure { fronts := fronts, domList := dl, domCount := dc, rank := rank }

/-- `std::min_element` with `less_than_f` on entry `i` (first smallest element), as used in `ideal`,
src/utils/multi_objective.cpp 499-502. -/
def minElem (i : Nat) : List (List (Fl K)) → Outcome (Fl K)
  | [] => .ub
  | p :: ps => do
    let a ← Outcome.get p i
    ps.foldlM (init := a) fun best q => do
      let b ← Outcome.get q i
      pure (if Fl.lessThanF b best then b else best)

/-- `std::max_element` with `less_than_f` on entry `i`, as used in `nadir`,
src/utils/multi_objective.cpp 536-538. -/
def maxElem (i : Nat) : List (List (Fl K)) → Outcome (Fl K)
  | [] => .ub
  | p :: ps => do
    let a ← Outcome.get p i
    ps.foldlM (init := a) fun best q => do
      let b ← Outcome.get q i
      pure (if Fl.lessThanF best b then b else best)

/-- `ideal`, src/utils/multi_objective.cpp 480-505. -/
def ideal (pts : List (List (Fl K))) : Outcome (List (Fl K)) :=
  match pts with
  | [] => .ok []
  | p0 :: _ =>
    if pts.any (fun p => p.length != p0.length) then .throws .invalidArgument
    else (List.range p0.length).mapM fun i => minElem i pts

/-- `nadir`, src/utils/multi_objective.cpp 519-541. -/
def nadir (pts : List (List (Fl K))) : Outcome (List (Fl K)) :=
  match pts with
  | [] => .ok []
  | p0 :: _ => do
    let t ← fnds pts
    let f0 ← Outcome.get t.fronts 0
    let nd ← f0.mapM fun i => Outcome.get pts i
    (List.range p0.length).mapM fun i => maxElem i nd

end Verif.MO
