import Verif.Base.FlArith
import Verif.Base.Sort

/-!
# Model of the hypervolume code

src/utils/hypervolume.cpp, src/utils/hv_algos/hv_algorithm.cpp, hv_hv2d.cpp, hv_hv3d.cpp, hv_hvwfg.cpp.

The definitions work over any `Num R`, the operations on `double` the code uses. `Num.ofField` is exact arithmetic on
finite numbers, `Num.ofFl` doubles with NaN and infinities. A point is a list; every function that takes points of
dimension `d` is undefined for points of another length (the code reads them without checks; reading only a prefix of
longer points is not modelled).
-/

set_option autoImplicit false

namespace Verif.Hv

open Verif

/-- The operations on `double` used by the hypervolume code. -/
structure Num (R : Type) where
  zero : R
  one : R
  add : R → R → R
  sub : R → R → R
  mul : R → R → R
  neg : R → R
  abs : R → R
  lt : R → R → Bool
  le : R → R → Bool
  eq : R → R → Bool
  nan : R → Bool
  /-- `-std::numeric_limits<double>::max()` -/
  low : R

/-- Exact arithmetic on finite numbers; `low` plays the part of the most negative double. -/
def Num.ofField (K : Type) [Field K] [LinearOrder K] (low : K) : Num K where
  zero := 0
  one := 1
  add := (· + ·)
  sub := (· - ·)
  mul := (· * ·)
  neg := (- ·)
  abs a := |a|
  lt a b := decide (a < b)
  le a b := decide (a ≤ b)
  eq a b := decide (a = b)
  nan _ := false
  low := low

/-- Doubles. -/
def Num.ofFl {K : Type} [Field K] [LinearOrder K] (op : Fl.Ops K) (low : K) : Num (Fl K) where
  zero := op.zero
  one := op.one
  add := op.add
  sub := op.sub
  mul := op.mul
  neg := Fl.neg
  abs := Fl.abs
  lt := Fl.lt
  le := Fl.le
  eq := Fl.eq
  nan := Fl.isNan
  low := .fin low

variable {R : Type}

/-- `std::max(a, b)` -/
def Num.max (N : Num R) (a b : R) : R := if N.lt a b then b else a

/-- Coordinate of a point whose length has been checked. -/
def Num.at (N : Num R) (p : List R) (i : Nat) : R := p.getD i N.zero

/-- all points have dimension `d` -/
def dimOk (d : Nat) (pts : List (List R)) (r : List R) : Bool := r.length == d && pts.all (fun p => p.length == d)

/-! ## hv_algorithm.cpp -/

/-- `volume_between(double *a, double *b, size)`, src/utils/hv_algos/hv_algorithm.cpp 90-97: the product runs from the
last coordinate to the first. The overload for vectors (68-78) runs upwards over `a - b`; up to the sign, which the last
line removes, it is the same product, see `volumeBetweenV`. -/
def volumeBetween (N : Num R) (a b : List R) (size : Nat) : R :=
  let v := (List.range size).reverse.foldl (fun v i => N.mul v (N.sub (N.at b i) (N.at a i))) N.one
  if N.lt v N.zero then N.neg v else v

/-- `volume_between(const vector_double &a, const vector_double &b, dim_bound = 0)`, 68-78. -/
def volumeBetweenV (N : Num R) (a b : List R) : R :=
  let v := (List.range a.length).foldl (fun v i => N.mul v (N.sub (N.at a i) (N.at b i))) N.one
  if N.lt v N.zero then N.neg v else v

/-- Result of `dom_cmp`. -/
inductive Cmp where
  | bDomA
  | aDomB
  | equal
  | incomparable
  deriving DecidableEq

/-- `dom_cmp`, src/utils/hv_algos/hv_algorithm.cpp 276-296; the loops over the coordinates from `i` on. -/
def domCmpFrom (N : Num R) (a b : List R) : List Nat → Cmp
  | [] => .equal
  | i :: is =>
    if N.lt (N.at b i) (N.at a i) then
      if is.any (fun j => N.lt (N.at a j) (N.at b j)) then .incomparable else .bDomA
    else if N.lt (N.at a i) (N.at b i) then
      if is.any (fun j => N.lt (N.at b j) (N.at a j)) then .incomparable else .aDomB
    else domCmpFrom N a b is

/-- `dom_cmp`, src/utils/hv_algos/hv_algorithm.cpp 276-296. -/
def domCmp (N : Num R) (a b : List R) (size : Nat) : Cmp := domCmpFrom N a b (List.range size)

/-- `assert_minimisation`, src/utils/hv_algos/hv_algorithm.cpp 226-259, for one point (coordinates are read from the
point and from the reference point). -/
def assertPoint (N : Num R) (r p : List R) : Outcome Unit :=
  if r.length < p.length then .ub
  else
    let outside := (List.range p.length).any (fun i => N.lt (N.at r i) (N.at p i))
    let allEqual := (List.range p.length).all (fun i => N.eq (N.at r i) (N.at p i))
    if allEqual || outside then .throws .invalidArgument else .ok ()

/-- `assert_minimisation`, src/utils/hv_algos/hv_algorithm.cpp 226-259. -/
def assertMinimisation (N : Num R) (pts : List (List R)) (r : List R) : Outcome Unit := pts.forM (assertPoint N r)

/-! ## hv_hv2d.cpp -/

/-- Loop of `hv2d::compute`, src/utils/hv_algos/hv_hv2d.cpp 76-80: `y` is the second coordinate of the current point,
`w` the width, `h` the hypervolume so far. -/
def hv2dLoop (N : Num R) (r : List R) : R → R → R → List (List R) → R
  | h, w, y, [] => N.add h (N.mul (N.sub (N.at r 1) y) w)
  | h, w, y, p :: ps =>
    hv2dLoop N r (N.add h (N.mul (N.sub (N.at p 1) y) w)) (N.max w (N.sub (N.at r 0) (N.at p 0))) (N.at p 1) ps

/-- A routine with the interface of `std::sort`. -/
abbrev Srt (R : Type) := (List R → List R → Bool) → List (List R) → List (List R)

/-- `std::sort` if the flag `m_initial_sorting` is set. -/
def sortIf (flag : Bool) (srt : Srt R) (lt : List R → List R → Bool) (pts : List (List R)) :
    Outcome (List (List R)) :=
  if flag then stdSort srt lt pts else .ok pts

/-- `hv2d::compute`, src/utils/hv_algos/hv_hv2d.cpp 59-83 and the overload for arrays 100-123 (they differ in the
overload of `volume_between` called for a single point). -/
def hv2d (N : Num R) (srt : Srt R) (sorting : Bool) (pts : List (List R)) (r : List R) : Outcome R :=
  if !dimOk 2 pts r then .ub
  else match pts with
    | [] => .ok N.zero
    | [p] => .ok (volumeBetween N p r 2)
    | pts => do
      let s ← sortIf sorting srt (fun a b => N.lt (N.at a 1) (N.at b 1)) pts
      match s with
      | [] => .ub
      | p :: ps => .ok (hv2dLoop N r N.zero (N.sub (N.at r 0) (N.at p 0)) (N.at p 1) ps)

/-! ## hv_hv3d.cpp -/

/-- `T.insert(p)` for the multiset ordered by decreasing first coordinate: `p` goes behind all elements with first
coordinate not below its own. The two parts of the result are the elements before and behind the new one. -/
def msetSplit (N : Num R) (p : List R) (T : List (List R)) : List (List R) × List (List R) :=
  T.span (fun e => !(N.lt (N.at e 0) (N.at p 0)))

/-- The `while` loop of `hv3d::compute`, src/utils/hv_algos/hv_hv3d.cpp 143-147, on the elements before `p` in reverse
order. -/
def hv3dBack (N : Num R) (p q : List R) : R → List (List R) → Outcome (R × List (List R))
  | _, [] => .ub
  | A, t :: ts =>
    if N.le (N.at p 1) (N.at t 1) then
      match ts with
      | [] => .ub
      | t' :: _ =>
        hv3dBack N p q (N.sub A (N.abs (N.mul (N.sub (N.at t 0) (N.at t' 0)) (N.sub (N.at t 1) (N.at q 1))))) ts
    else .ok (A, t :: ts)

/-- State of the sweep: volume, area, last level, front. -/
structure Sweep (R : Type) where
  V : R
  A : R
  z3 : R
  T : List (List R)

/-- Body of the loop of `hv3d::compute`, src/utils/hv_algos/hv_hv3d.cpp 134-150. -/
def hv3dStep (N : Num R) (s : Sweep R) (p : List R) : Outcome (Sweep R) := do
  let lr := msetSplit N p s.T
  match lr.2 with
  | [] => .ub
  | q :: _ =>
    if N.le (N.at q 1) (N.at p 1) then .ok s
    else do
      let V := N.add s.V (N.mul s.A (N.abs (N.sub s.z3 (N.at p 2))))
      let back ← hv3dBack N p q s.A lr.1.reverse
      match back.2 with
      | [] => .ub
      | t :: _ =>
        let A := N.add back.1 (N.abs (N.mul (N.sub (N.at p 0) (N.at t 0)) (N.sub (N.at p 1) (N.at q 1))))
        .ok ⟨V, A, N.at p 2, back.2.reverse ++ p :: lr.2⟩

/-- `hv3d::compute`, src/utils/hv_algos/hv_hv3d.cpp 107-155. The three first insertions (126-129) are written as
insertions into the multiset. -/
def hv3d (N : Num R) (srt : Srt R) (sorting : Bool) (pts : List (List R)) (r : List R) : Outcome R :=
  if !dimOk 3 pts r then .ub
  else do
    let s ← sortIf sorting srt (fun a b => N.lt (N.at a 2) (N.at b 2)) pts
    match s with
    | [] => .ub
    | p0 :: ps => do
      let sA := [N.at r 0, N.low, N.at r 2]
      let sB := [N.low, N.at r 1, N.at r 2]
      let T1 := (msetSplit N sB [sA]).1 ++ sB :: (msetSplit N sB [sA]).2
      let T2 := (msetSplit N p0 T1).1 ++ p0 :: (msetSplit N p0 T1).2
      let A := N.abs (N.mul (N.sub (N.at p0 0) (N.at r 0)) (N.sub (N.at p0 1) (N.at r 1)))
      let fin ← ps.foldlM (hv3dStep N) ⟨N.zero, A, N.at p0 2, T2⟩
      .ok (N.add fin.V (N.mul fin.A (N.abs (N.sub fin.z3 (N.at r 2)))))

/-! ## hv_hvwfg.cpp -/

/-- `cmp_points`, src/utils/hv_algos/hv_hvwfg.cpp 303-313. -/
def cmpPoints (N : Num R) (a b : List R) : Nat → Bool
  | 0 => false
  | i + 1 =>
    if N.lt (N.at b i) (N.at a i) then true
    else if N.lt (N.at a i) (N.at b i) then false
    else cmpPoints N a b i

/-- The point computed in `limitset`, src/utils/hv_algos/hv_hvwfg.cpp 168-170. -/
def limitPoint (N : Num R) (slice : Nat) (p q : List R) : List R :=
  (List.range slice).map (fun i => N.max (N.at q i) (N.at p i))

/-- Body of the loop of `limitset`, src/utils/hv_algos/hv_hvwfg.cpp 168-210: the point `s` enters the frame unless a
member dominates it; the members it dominates or equals are removed. The compaction in place is written as `filter`. -/
def limitInsert (N : Num R) (slice : Nat) (frame : List (List R)) (s : List R) : List (List R) :=
  if frame.any (fun q => domCmp N s q slice == .bDomA) then frame
  else frame.filter (fun q => domCmp N s q slice != .aDomB && domCmp N s q slice != .equal) ++ [s]

/-- `limitset`, src/utils/hv_algos/hv_hvwfg.cpp 153-214; `others` are the points of the frame with index from
`begin_idx` on, without `p` itself. -/
def limitSet (N : Num R) (slice : Nat) (p : List R) (others : List (List R)) : List (List R) :=
  others.foldl (fun fr q => limitInsert N slice fr (limitPoint N slice p q)) []

/-- `exclusive_hv`, src/utils/hv_algos/hv_hvwfg.cpp 217-229; `rec` is the recursive call. -/
def exclusiveHv (N : Num R) (r : List R) (slice : Nat) (rec : List (List R) → Outcome R) (p : List R)
    (frame : List (List R)) : Outcome R :=
  let H := volumeBetween N p r slice
  match frame with
  | [] => .ok H
  | [q] => .ok (N.sub H (volumeBetween N q r slice))
  | fr => do
    let v ← rec fr
    .ok (N.sub H v)

/-- Loop of `compute_hv`, src/utils/hv_algos/hv_hvwfg.cpp 290-294, after `--m_current_slice`. -/
def wfgLoop (N : Num R) (r : List R) (slice : Nat) (rec : List (List R) → Outcome R) :
    R → List (List R) → Outcome R
  | H, [] => .ok H
  | H, p :: ps => do
    let e ← exclusiveHv N r slice rec p (limitSet N slice p ps)
    wfgLoop N r slice rec (N.add H (N.abs (N.mul (N.sub (N.at p slice) (N.at r slice)) e))) ps

/-- `compute_hv`, src/utils/hv_algos/hv_hvwfg.cpp 232-297. `stop` is `m_stop_dimension`, `base` the algorithm used in
that dimension, `maxDim` the size of the arrays of frames, `slice` the current slice, `level` the recursion level: frame
number `level` is created here the first time, outside the arrays if `level` is not below `maxDim`. `r` is the whole
reference point. -/
def computeHv (N : Num R) (srt : Srt R) (stop maxDim : Nat) (base : List (List R) → List R → Outcome R) (r : List R) :
    (slice level : Nat) → List (List R) → Outcome R
  | slice, level, pts =>
    match pts with
    | [p] => .ok (volumeBetween N p r slice)
    | [p, q] =>
      let hv := N.add (volumeBetween N p r slice) (volumeBetween N q r slice)
      let isect := (List.range slice).foldl
        (fun v i => N.mul v (N.sub (N.at r i) (N.max (N.at p i) (N.at q i)))) N.one
      .ok (N.sub hv isect)
    | pts =>
      if slice = stop then base pts (r.take slice)
      else match slice with
        | 0 => .ub
        | slice + 1 => do
          let s ← stdSort srt (fun a b => cmpPoints N a b (slice + 1)) pts
          if maxDim ≤ level then .ub
          else wfgLoop N r slice (computeHv N srt stop maxDim base r slice (level + 1)) N.zero s

/-- `hvwfg(2).compute`, src/utils/hv_algos/hv_hvwfg.cpp 64-70, with the stop dimension 2 (the default): the base is
`hv2d`. -/
def wfg2 (N : Num R) (srt : Srt R) (pts : List (List R)) (r : List R) : Outcome R :=
  if !dimOk r.length pts r then .ub
  else computeHv N srt 2 r.length (hv2d N srt true) r r.length 1 pts

/-- The algorithm chosen by `get_best_compute`, src/utils/hypervolume.cpp 488-499, for the dimension of the reference
point. -/
def bestCompute (N : Num R) (srt : Srt R) (pts : List (List R)) (r : List R) : Outcome R :=
  if r.length = 2 then hv2d N srt true pts r
  else if r.length = 3 then hv3d N srt true pts r
  else wfg2 N srt pts r

/-- The algorithm used in the stop dimension, src/utils/hv_algos/hv_hvwfg.cpp 253-268. -/
def wfgBase (N : Num R) (srt : Srt R) (stop : Nat) (pts : List (List R)) (r : List R) : Outcome R :=
  if stop = 2 then hv2d N srt true pts r else bestCompute N srt pts r

/-- `hvwfg(stop).compute`, src/utils/hv_algos/hv_hvwfg.cpp 64-70; the constructor (48-53) rejects stop dimensions below
2. -/
def wfg (N : Num R) (srt : Srt R) (stop : Nat) (pts : List (List R)) (r : List R) : Outcome R :=
  if stop < 2 then .throws .invalidArgument
  else if !dimOk r.length pts r then .ub
  else computeHv N srt stop r.length (wfgBase N srt stop) r r.length 1 pts

/-- Body of the loop of `hvwfg::contributions`, src/utils/hv_algos/hv_hvwfg.cpp 109-112. -/
def wfgContribution (N : Num R) (srt : Srt R) (stop : Nat) (r : List R) (pts : List (List R)) (i : Nat) :
    Outcome R := do
  let p ← Outcome.get pts i
  exclusiveHv N r r.length (computeHv N srt stop r.length (wfgBase N srt stop) r r.length 2) p
    (limitSet N r.length p (pts.eraseIdx i))

/-- `hvwfg(stop).contributions`, src/utils/hv_algos/hv_hvwfg.cpp 92-118. Frame number 1 is created first (105). -/
def wfgContributions (N : Num R) (srt : Srt R) (stop : Nat) (pts : List (List R)) (r : List R) : Outcome (List R) :=
  if stop < 2 then .throws .invalidArgument
  else if !dimOk r.length pts r || r.length < 2 then .ub
  else (List.range pts.length).mapM (wfgContribution N srt stop r pts)

/-! ## hv_algorithm.cpp: derived methods -/

/-- `hv_algorithm::exclusive`, src/utils/hv_algos/hv_algorithm.cpp 112-123, for an algorithm with the given `compute`;
`p_idx` beyond the end is undefined. -/
def exclusive (N : Num R) (compute : List (List R) → List R → Outcome R) (i : Nat) (pts : List (List R))
    (r : List R) : Outcome R :=
  if pts.length = 1 then compute pts r
  else if pts.length ≤ i then .ub
  else do
    let a ← compute pts r
    let b ← compute (pts.take i ++ pts.drop (i + 1)) r
    .ok (N.sub a b)

/-- Body of the loop of `hv_algorithm::contributions`, 194-199. -/
def contribution (N : Num R) (compute : List (List R) → List R → Outcome R) (total : R) (pts : List (List R))
    (r : List R) (i : Nat) : Outcome R := do
  let b ← compute (pts.take i ++ pts.drop (i + 1)) r
  .ok (N.sub total b)

/-- `hv_algorithm::contributions`, src/utils/hv_algos/hv_algorithm.cpp 173-203 (the default, for algorithms that do not
override it). -/
def contributionsDefault (N : Num R) (compute : List (List R) → List R → Outcome R) (pts : List (List R))
    (r : List R) : Outcome (List R) :=
  match pts with
  | [] => .ub
  | [p] => .ok [volumeBetweenV N p r]
  | pts => do
    let total ← compute pts r
    (List.range pts.length).mapM (contribution N compute total pts r)

/-- Loop of `extreme_contributor`, src/utils/hv_algos/hv_algorithm.cpp 342-346: `k` is the index of the extreme value
`v` so far, `i` the index of the head of the list. -/
def extremeLoop (cmp : R → R → Bool) : Nat → R → Nat → List R → Nat
  | k, _, _, [] => k
  | k, v, i, c :: cs => if cmp c v then extremeLoop cmp i c (i + 1) cs else extremeLoop cmp k v (i + 1) cs

/-- `extreme_contributor`, src/utils/hv_algos/hv_algorithm.cpp 329-349. -/
def extremeContributor (contributions : List (List R) → List R → Outcome (List R)) (cmp : R → R → Bool)
    (pts : List (List R)) (r : List R) : Outcome Nat :=
  if pts.length = 1 then .ok 0
  else do
    let c ← contributions pts r
    match c with
    | [] => .ok 0
    | v :: cs => .ok (extremeLoop cmp 0 v 1 cs)

/-- `least_contributor`, `greatest_contributor`, src/utils/hv_algos/hv_algorithm.cpp 136-157. -/
def leastContributor (N : Num R) (contributions : List (List R) → List R → Outcome (List R)) (pts : List (List R))
    (r : List R) : Outcome Nat := extremeContributor contributions N.lt pts r

@[inherit_doc leastContributor]
def greatestContributor (N : Num R) (contributions : List (List R) → List R → Outcome (List R)) (pts : List (List R))
    (r : List R) : Outcome Nat := extremeContributor contributions (fun a b => N.lt b a) pts r

/-! ## hypervolume.cpp -/

/-- `verify_after_construct`, src/utils/hypervolume.cpp 410-432. -/
def verifyAfterConstruct (N : Num R) (pts : List (List R)) : Outcome Unit :=
  match pts with
  | [] => .throws .invalidArgument
  | p0 :: _ =>
    if p0.length ≤ 1 then .throws .invalidArgument
    else if pts.any (fun v => v.length != p0.length) then .throws .invalidArgument
    else if pts.any (fun v => v.any N.nan) then .throws .invalidArgument
    else .ok ()

/-- `hypervolume(points, verify)`, src/utils/hypervolume.cpp 73-79. -/
def construct (N : Num R) (pts : List (List R)) (verify : Bool) : Outcome (List (List R)) :=
  if verify then do
    verifyAfterConstruct N pts
    .ok pts
  else .ok pts

/-- An `hv_algorithm`: what `hypervolume` uses of it. -/
structure Algo (R : Type) where
  verify : List (List R) → List R → Outcome Unit
  compute : List (List R) → List R → Outcome R
  contributions : List (List R) → List R → Outcome (List R)

/-- `verify_before_compute`, src/utils/hypervolume.cpp 443-449. -/
def verifyBeforeCompute (algo : Algo R) (pts : List (List R)) (r : List R) : Outcome Unit :=
  match pts with
  | [] => .ub
  | p0 :: _ => if p0.length ≠ r.length then .throws .invalidArgument else algo.verify pts r

/-- `if (m_verify) verify_before_compute(...)` -/
def verifyIf (verify : Bool) (algo : Algo R) (pts : List (List R)) (r : List R) : Outcome Unit :=
  if verify then verifyBeforeCompute algo pts r else .ok ()

/-- `hypervolume::compute(r_point, hv_algo)`, src/utils/hypervolume.cpp 217-229, with `m_copy_points` (otherwise the
points of the object may be reordered). -/
def hvCompute (verify : Bool) (algo : Algo R) (pts : List (List R)) (r : List R) : Outcome R := do
  verifyIf verify algo pts r
  algo.compute pts r

/-- `hypervolume::exclusive(p_idx, r_point, hv_algo)`, src/utils/hypervolume.cpp 241-258; the algorithms of the library
do not override `exclusive` (except the approximated ones, not modelled). -/
def hvExclusive (N : Num R) (verify : Bool) (algo : Algo R) (i : Nat) (pts : List (List R)) (r : List R) :
    Outcome R := do
  verifyIf verify algo pts r
  if pts.length ≤ i then .throws .invalidArgument else exclusive N algo.compute i pts r

/-- `hypervolume::contributions(r_point, hv_algo)`, src/utils/hypervolume.cpp 286-306. -/
def hvContributions (N : Num R) (verify : Bool) (algo : Algo R) (pts : List (List R)) (r : List R) :
    Outcome (List R) := do
  verifyIf verify algo pts r
  match pts with
  | [p] => .ok [volumeBetweenV N p r]
  | pts => algo.contributions pts r

/-- `hypervolume::least_contributor(r_point, hv_algo)`, src/utils/hypervolume.cpp 332-350. -/
def hvLeast (N : Num R) (verify : Bool) (algo : Algo R) (pts : List (List R)) (r : List R) : Outcome Nat := do
  verifyIf verify algo pts r
  if pts.length = 1 then .ok 0 else leastContributor N algo.contributions pts r

/-- `hypervolume::greatest_contributor(r_point, hv_algo)`, src/utils/hypervolume.cpp 375-388. -/
def hvGreatest (N : Num R) (verify : Bool) (algo : Algo R) (pts : List (List R)) (r : List R) : Outcome Nat := do
  verifyIf verify algo pts r
  greatestContributor N algo.contributions pts r

/-- `hv2d::verify_before_compute` (hv_hv2d.cpp 167-174) and `hv3d::verify_before_compute` (hv_hv3d.cpp 320-327). -/
def verifyDim (N : Num R) (d : Nat) (pts : List (List R)) (r : List R) : Outcome Unit :=
  if r.length ≠ d then .throws .invalidArgument else assertMinimisation N pts r

/-- `hypervolume::refpoint`, src/utils/hypervolume.cpp 160-181. -/
def refpoint (N : Num R) (pts : List (List R)) (offset : R) : Outcome (List R) :=
  match pts with
  | [] => .ok []
  | p0 :: ps =>
    if ps.any (fun p => p.length < p0.length) then .ub
    else .ok ((List.range p0.length).map (fun i => N.add (ps.foldl (fun m p => N.max m (N.at p i)) (N.at p0 i)) offset))

end Verif.Hv
