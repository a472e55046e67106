import Verif.Model.Hypervolume

/-!
# Model of the exclusive contributions in two and three dimensions

`hv3d::contributions` (src/utils/hv_algos/hv_hv3d.cpp 170-308) and `hv2d::contributions` (hv_hv2d.cpp 133-146).
-/

set_option autoImplicit false

namespace Verif.Hv

open Verif

variable {R : Type}

/-- `box3d`, src/utils/hv_algos/hv_hv3d.cpp 53-64. -/
structure Box3 (R : Type) where
  lx : R
  ly : R
  lz : R
  ux : R
  uy : R
  uz : R

/-- `box_volume`, src/utils/hv_algos/hv_hv3d.cpp 79-82. -/
def boxVolume (N : Num R) (b : Box3 R) : R :=
  N.abs (N.mul (N.mul (N.sub b.ux b.lx) (N.sub b.uy b.ly)) (N.sub b.uz b.lz))

/-- An element of the tree: a point and its index. -/
abbrev Node (R : Type) := List R × Nat

/-- `T.lower_bound(pi)`, 226: the elements before the position found are those with a greater first coordinate. -/
def hyLower (N : Num R) (p : List R) (T : List (Node R)) : List (Node R) × List (Node R) :=
  T.span (fun e => N.lt (N.at p 0) (N.at e.1 0))

/-- `T.insert(pi)`, 299 and 213-215: behind all elements with first coordinate not below that of the new one. -/
def hyInsert (N : Num R) (e : Node R) (T : List (Node R)) : List (Node R) :=
  let lr := T.span (fun a => !(N.lt (N.at a.1 0) (N.at e.1 0)))
  lr.1 ++ e :: lr.2

/-- The `while` loop 237-240 on the elements before the position found, in reverse order: indices collected and
elements left. Running over the beginning of the tree is undefined. -/
def hyBack (N : Num R) (p : List R) : List (Node R) → Outcome (List Nat × List (Node R))
  | [] => .ub
  | t :: ts =>
    if N.lt (N.at p 1) (N.at t.1 1) then do
      let o ← hyBack N p ts
      .ok (t.2 :: o.1, o.2)
    else .ok ([], t :: ts)

/-- `c[j] += box_volume(b)` after `b.lz = z`. -/
def hyClose (N : Num R) (z : R) (j : Nat) (b : Box3 R) (c : List R) : Outcome (List R) := do
  let v ← Outcome.get c j
  Outcome.set c j (N.add v (boxVolume N { b with lz := z }))

/-- Right neighbour, src/utils/hv_algos/hv_hv3d.cpp 248-264; `big` is the placeholder `NaN`. -/
def hyRight (N : Num R) (big : R) (p : List R) (j : Nat) : List R → List (Box3 R) → Outcome (List R × List (Box3 R))
  | c, [] => .ok (c, [])
  | c, b :: bs =>
    if N.le (N.at p 0) b.ux then do
      let c ← hyClose N (N.at p 2) j b c
      hyRight N big p j c bs
    else if N.lt (N.at p 0) b.lx then do
      let c ← hyClose N (N.at p 2) j b c
      .ok (c, { b with lx := N.at p 0, uz := N.at p 2, lz := big } :: bs)
    else .ok (c, b :: bs)

/-- A dominated neighbour, 272-277: all its boxes are closed. -/
def hyCloseAll (N : Num R) (z : R) (j : Nat) (c : List R) (bs : List (Box3 R)) : Outcome (List R) :=
  bs.foldlM (fun c b => hyClose N z j b c) c

/-- Dominated neighbours, 267-281: from the left one on. The result is the volumes, the boxes of all points, the boxes
of the new point and the last value of `xleft`. -/
def hyMiddle (N : Num R) (big : R) (ps : List (List R)) (p : List R) :
    List Nat → R → List R → List (List (Box3 R)) → List (Box3 R) →
      Outcome (List R × List (List (Box3 R)) × List (Box3 R) × R)
  | [], xleft, c, L, new => .ok (c, L, new, xleft)
  | j :: js, xleft, c, L, new => do
    let bs ← Outcome.get L j
    let c ← hyCloseAll N (N.at p 2) j c bs
    let L ← Outcome.set L j []
    let q ← Outcome.get ps j
    hyMiddle N big ps p js (N.at q 0) c L (new ++ [⟨xleft, N.at q 1, big, N.at q 0, N.at p 1, N.at p 2⟩])

/-- Left neighbour, 285-295, on the boxes in reverse order. -/
def hyLeft (N : Num R) (p : List R) (j : Nat) : R → List R → List (Box3 R) → Outcome (R × List R × List (Box3 R))
  | xleft, c, [] => .ok (xleft, c, [])
  | xleft, c, b :: bs =>
    if N.lt (N.at p 1) b.ly then do
      let c ← hyClose N (N.at p 2) j b c
      hyLeft N p j b.lx c bs
    else .ok (xleft, c, b :: bs)

/-- State of the loop. -/
structure HyState (R : Type) where
  T : List (Node R)
  L : List (List (Box3 R))
  c : List R

/-- Body of the loop, src/utils/hv_algos/hv_hv3d.cpp 224-299; `none` if the point is dominated in the first two
coordinates (the function then returns what `hvwfg(2).contributions` returns). `ps` are the points with the
sentinels. -/
def hyStep (N : Num R) (big : R) (ps : List (List R)) (i : Nat) (s : HyState R) : Outcome (Option (HyState R)) := do
  let p ← Outcome.get ps i
  let lr := hyLower N p s.T
  match lr.2 with
  | [] => .ub
  | it :: _ =>
    if N.le (N.at it.1 1) (N.at p 1) then .ok none
    else do
      let bk ← hyBack N p lr.1.reverse
      match bk.2 with
      | [] => .ub
      | tn :: _ => do
        let r := it.2
        let t := tn.2
        let Lr ← Outcome.get s.L r
        let cr ← hyRight N big p r s.c Lr
        let L ← Outcome.set s.L r cr.2
        let pt ← Outcome.get ps t
        let pr ← Outcome.get ps r
        let Li ← Outcome.get L i
        let m ← hyMiddle N big ps p bk.1.reverse (N.at pt 0) cr.1 L Li
        let L ← Outcome.set m.2.1 i (m.2.2.1 ++ [⟨m.2.2.2, N.at pr 1, big, N.at p 0, N.at p 1, N.at p 2⟩])
        let Lt ← Outcome.get L t
        let l ← hyLeft N p t (N.at pt 0) m.1 Lt.reverse
        let Lt := if N.lt (N.at pt 0) l.1 then l.2.2.reverse ++ [⟨l.1, N.at p 1, big, N.at pt 0, N.at pt 1, N.at p 2⟩]
          else l.2.2.reverse
        let L ← Outcome.set L t Lt
        .ok (some ⟨hyInsert N (p, i) (bk.2.reverse ++ lr.2), L, l.2.1⟩)

/-- The loop 223-300. -/
def hyLoop (N : Num R) (big : R) (ps : List (List R)) : List Nat → HyState R → Outcome (Option (HyState R))
  | [], s => .ok (some s)
  | i :: is, s => do
    let o ← hyStep N big ps i s
    match o with
    | none => .ok none
    | some s => hyLoop N big ps is s

/-- `point_pairs`, sorted if the flag is set, 175-184. -/
def hyPairs (N : Num R) (srt : (Node R → Node R → Bool) → List (Node R) → List (Node R)) (sorting : Bool)
    (pts : List (List R)) : Outcome (List (Node R)) :=
  if sorting then stdSort srt (fun a b => N.lt (N.at a.1 2) (N.at b.1 2)) pts.zipIdx else .ok pts.zipIdx

/-- `contribs[point_pairs[i].second] = c[i]`, 303-306. -/
def hyFix (prs : List (Node R)) (zero : R) (c : List R) : Outcome (List R) :=
  (prs.zip c).foldlM (fun o x => Outcome.set o x.1.2 x.2) (List.replicate prs.length zero)

/-- `hv3d::contributions`, src/utils/hv_algos/hv_hv3d.cpp 170-308. `big` is `INF`, `srt2` sorts the pairs. -/
def hv3dContributions (N : Num R) (srt : Srt R) (srt2 : (Node R → Node R → Bool) → List (Node R) → List (Node R))
    (big : R) (sorting : Bool) (pts : List (List R)) (r : List R) : Outcome (List R) :=
  if !dimOk 3 pts r then .ub
  else do
    let prs ← hyPairs N srt2 sorting pts
    let n := prs.length
    let sx := [N.at r 0, N.low, N.low]
    let sy := [N.low, N.at r 1, N.low]
    let sz := [N.low, N.low, N.at r 2]
    let ps := prs.map (·.1) ++ [sz, sx, sy]
    let p0 ← Outcome.get ps 0
    let T := hyInsert N (sy, n + 2) (hyInsert N (sx, n + 1) [(p0, 0)])
    let L : List (List (Box3 R)) :=
      [⟨N.at r 0, N.at r 1, big, N.at p0 0, N.at p0 1, N.at p0 2⟩] :: List.replicate (n + 2) []
    let o ← hyLoop N big ps (List.range' 1 n) ⟨T, L, List.replicate n N.zero⟩
    match o with
    | none => wfgContributions N srt 2 pts r
    | some s => hyFix prs N.zero s.c

/-- `hv2d::contributions`, src/utils/hv_algos/hv_hv2d.cpp 133-146. -/
def hv2dContributions (N : Num R) (srt : Srt R) (srt2 : (Node R → Node R → Bool) → List (Node R) → List (Node R))
    (big : R) (pts : List (List R)) (r : List R) : Outcome (List R) :=
  if !dimOk 2 pts r then .ub
  else hv3dContributions N srt srt2 big false (pts.map (fun p => [N.at p 0, N.at p 1, N.zero])) (r ++ [N.one])

/-- The algorithm chosen by `get_best_contributions`, src/utils/hypervolume.cpp 525-536. -/
def bestContributions (N : Num R) (srt : Srt R) (srt2 : (Node R → Node R → Bool) → List (Node R) → List (Node R))
    (big : R) (pts : List (List R)) (r : List R) : Outcome (List R) :=
  if r.length = 2 then hv2dContributions N srt srt2 big pts r
  else if r.length = 3 then hv3dContributions N srt srt2 big true pts r
  else wfgContributions N srt 2 pts r

/-- The algorithm object chosen by `get_best_compute`, `get_best_exclusive` and `get_best_contributions`,
src/utils/hypervolume.cpp 488-536, with its `verify_before_compute` (hv_hv2d.cpp 167-174, hv_hv3d.cpp 320-327,
hv_hvwfg.cpp 130-133). -/
def bestAlgo (N : Num R) (srt : Srt R) (srt2 : (Node R → Node R → Bool) → List (Node R) → List (Node R))
    (big : R) (r : List R) : Algo R where
  verify := if r.length = 2 then verifyDim N 2 else if r.length = 3 then verifyDim N 3 else assertMinimisation N
  compute := bestCompute N srt
  contributions := bestContributions N srt srt2 big

end Verif.Hv
