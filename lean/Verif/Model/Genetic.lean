import Verif.Model.Random

/-!
# Model of src/utils/genetic_operators.cpp

`pw` stands for `std::pow`.
-/

set_option autoImplicit false

namespace Verif.Genetic

open Verif

variable {K σ : Type} [Field K] [LinearOrder K]

/-- literal constants -/
def half : Fl K := .fin (1 / 2)
def two : Fl K := .fin 2
/-- `1e-14` -/
def tiny : Fl K := .fin (1 / 10 ^ 14)

/-- `sbx_betaq`, src/utils/genetic_operators.cpp 49-57. -/
def sbxBetaq (pw : Fl K → Fl K → Fl K) (op : Fl.Ops K) (beta eta r : Fl K) : Fl K :=
  let alpha := op.sub two (pw beta (Fl.neg (op.add eta op.one)))
  if Fl.lt r (op.div op.one alpha) then pw (op.mul r alpha) (op.div op.one (op.add eta op.one))
  else pw (op.div op.one (op.sub two (op.mul r alpha))) (op.div op.one (op.add eta op.one))

/-- The two new values of a gene, src/utils/genetic_operators.cpp 106-113, before they are forced into the bounds.
`y1 ≤ y2` are the values of the parents. -/
def sbxValues (pw : Fl K → Fl K → Fl K) (op : Fl.Ops K) (yl yu y1 y2 eta r : Fl K) : Fl K × Fl K :=
  let beta := op.add op.one (op.div (op.mul two (op.sub y1 yl)) (op.sub y2 y1))
  let betaq := sbxBetaq pw op beta eta r
  let c1 := op.mul half (op.sub (op.add y1 y2) (op.mul betaq (op.sub y2 y1)))
  let beta := op.add op.one (op.div (op.mul two (op.sub yu y2)) (op.sub y2 y1))
  let betaq := sbxBetaq pw op beta eta r
  let c2 := op.mul half (op.add (op.add y1 y2) (op.mul betaq (op.sub y2 y1)))
  (c1, c2)

/-- `if (c < lb) c = lb; if (c > ub) c = ub;`, 115-118 (the four statements act on two variables) and 183-184. -/
def clamp (l u c : Fl K) : Fl K :=
  let c := if Fl.lt c l then l else c
  if Fl.gt c u then u else c

/-- Body of the loop over the continuous part, src/utils/genetic_operators.cpp 92-127. -/
def sbxGene (g : Gen K σ) (pw : Fl K → Fl K → Fl K) (op : Fl.Ops K) (p1 p2 lb ub : List (Fl K)) (eta : Fl K)
    (ch : List (Fl K) × List (Fl K)) (i : Nat) : Run σ (List (Fl K) × List (Fl K)) := do
  let a ← Run.lift (Outcome.get p1 i)
  let b ← Run.lift (Outcome.get p2 i)
  let l ← Run.lift (Outcome.get lb i)
  let u ← Run.lift (Outcome.get ub i)
  let r ← g.draw01
  if Fl.lt r half && Fl.gt (Fl.abs (op.sub a b)) tiny && !(Fl.eq l u) then do
    let y := if Fl.lt a b then (a, b) else (b, a)
    let r ← g.draw01
    let c := sbxValues pw op l u y.1 y.2 eta r
    let r ← g.draw01
    if Fl.lt r half then do
      let x1 ← Run.lift (Outcome.set ch.1 i (clamp l u c.1))
      let x2 ← Run.lift (Outcome.set ch.2 i (clamp l u c.2))
      pure (x1, x2)
    else do
      let x1 ← Run.lift (Outcome.set ch.1 i (clamp l u c.2))
      let x2 ← Run.lift (Outcome.set ch.2 i (clamp l u c.1))
      pure (x1, x2)
  else pure ch

/-- Body of the loop of the two-point crossover, src/utils/genetic_operators.cpp 137-140. -/
def swapGene (p1 p2 : List (Fl K)) (ch : List (Fl K) × List (Fl K)) (j : Nat) :
    Outcome (List (Fl K) × List (Fl K)) := do
  let a ← Outcome.get p1 j
  let b ← Outcome.get p2 j
  let x1 ← Outcome.set ch.1 j b
  let x2 ← Outcome.set ch.2 j a
  .ok (x1, x2)

/-- The two-point crossover of the integer part, src/utils/genetic_operators.cpp 130-141. -/
def sbxInteger (g : Gen K σ) (p1 p2 : List (Fl K)) (nix : Nat) (ch : List (Fl K) × List (Fl K)) :
    Run σ (List (Fl K) × List (Fl K)) :=
  if nix > 0 then do
    let s1 ← g.drawNat (p1.length - nix) (p1.length - 1)
    let s2 ← g.drawNat (p1.length - nix) (p1.length - 1)
    let s := if s1 > s2 then (s2, s1) else (s1, s2)
    Run.lift ((List.range' s.1 (s.2 + 1 - s.1)).foldlM (swapGene p1 p2) ch)
  else pure ch

/-- `detail::sbx_crossover_impl`, src/utils/genetic_operators.cpp 71-144. -/
def sbxImpl (g : Gen K σ) (pw : Fl K → Fl K → Fl K) (op : Fl.Ops K) (p1 p2 lb ub : List (Fl K)) (nix : Nat)
    (pCr eta : Fl K) : Run σ (List (Fl K) × List (Fl K)) := do
  let r ← g.draw01
  if Fl.lt r pCr then do
    let ch ← (List.range (p1.length - nix)).foldlM (sbxGene g pw op p1 p2 lb ub eta) (p1, p2)
    sbxInteger g p1 p2 nix ch
  else pure (p1, p2)

/-- The check for infinite bounds at position `i`, src/utils/genetic_operators.cpp 268-273, 324-329. -/
def checkFiniteAt (lb ub : List (Fl K)) (i : Nat) : Outcome Unit := do
  let l ← Outcome.get lb i
  let u ← Outcome.get ub i
  if !(l.isFinite && u.isFinite) then .throws .invalidArgument else .ok ()

/-- The checks of `sbx_crossover`, src/utils/genetic_operators.cpp 254-280. -/
def sbxChecks [FloorRing K] (p1 p2 lb ub : List (Fl K)) (nix : Nat) (pCr eta : Fl K) : Outcome Unit := do
  Prob.checkBounds lb ub nix
  if p1.length ≠ p2.length then .throws .invalidArgument
  else if p1.length ≠ lb.length then .throws .invalidArgument
  else do
    (List.range lb.length).forM (checkFiniteAt lb ub)
    if !pCr.isFinite then .throws .invalidArgument
    else if !eta.isFinite then .throws .invalidArgument
    else .ok ()

/-- `sbx_crossover`, src/utils/genetic_operators.cpp 247-282. -/
def sbxCrossover [FloorRing K] (g : Gen K σ) (pw : Fl K → Fl K → Fl K) (op : Fl.Ops K) (p1 p2 lb ub : List (Fl K))
    (nix : Nat) (pCr eta : Fl K) : Run σ (List (Fl K) × List (Fl K)) := do
  Run.lift (sbxChecks p1 p2 lb ub nix pCr eta)
  sbxImpl g pw op p1 p2 lb ub nix pCr eta

/-- The mutated value, src/utils/genetic_operators.cpp 166-182, before it is forced into the bounds. -/
def polyValue (pw : Fl K → Fl K → Fl K) (op : Fl.Ops K) (y yl yu eta rnd : Fl K) : Fl K :=
  let delta1 := op.div (op.sub y yl) (op.sub yu yl)
  let delta2 := op.div (op.sub yu y) (op.sub yu yl)
  let mutPow := op.div op.one (op.add eta op.one)
  let deltaq :=
    if Fl.lt rnd half then
      let xy := op.sub op.one delta1
      let val := op.add (op.mul two rnd) (op.mul (op.sub op.one (op.mul two rnd)) (pw xy (op.add eta op.one)))
      op.sub (pw val mutPow) op.one
    else
      let xy := op.sub op.one delta2
      let val := op.add (op.mul two (op.sub op.one rnd))
        (op.mul (op.mul two (op.sub rnd half)) (pw xy (op.add eta op.one)))
      op.sub op.one (pw val mutPow)
  op.add y (op.mul deltaq (op.sub yu yl))

/-- Body of the loop over the continuous part, src/utils/genetic_operators.cpp 164-187. -/
def polyGene (g : Gen K σ) (pw : Fl K → Fl K → Fl K) (op : Fl.Ops K) (lb ub : List (Fl K)) (pM eta : Fl K)
    (x : List (Fl K)) (j : Nat) : Run σ (List (Fl K)) := do
  let l ← Run.lift (Outcome.get lb j)
  let u ← Run.lift (Outcome.get ub j)
  let y ← Run.lift (Outcome.get x j)
  let r ← g.draw01
  if Fl.lt r pM && !(Fl.eq l u) then do
    let rnd ← g.draw01
    Run.lift (Outcome.set x j (clamp l u (polyValue pw op y l u eta rnd)))
  else pure x

/-- Body of the loop over the integer part, src/utils/genetic_operators.cpp 190-196. -/
def polyInt [FloorRing K] (g : Gen K σ) (lb ub : List (Fl K)) (pM : Fl K) (x : List (Fl K)) (j : Nat) :
    Run σ (List (Fl K)) := do
  let l ← Run.lift (Outcome.get lb j)
  let u ← Run.lift (Outcome.get ub j)
  let r ← g.draw01
  if Fl.lt r pM then do
    let v ← Rnd.uniformIntegralFromRange g l u
    Run.lift (Outcome.set x j v)
  else pure x

/-- `detail::polynomial_mutation_impl`, src/utils/genetic_operators.cpp 148-197. -/
def polyImpl [FloorRing K] (g : Gen K σ) (pw : Fl K → Fl K → Fl K) (op : Fl.Ops K) (x lb ub : List (Fl K)) (nix : Nat)
    (pM eta : Fl K) : Run σ (List (Fl K)) := do
  let ncx := x.length - nix
  let x' ← (List.range ncx).foldlM (polyGene g pw op lb ub pM eta) x
  (List.range' ncx (x.length - ncx)).foldlM (polyInt g lb ub pM) x'

/-- The checks of `polynomial_mutation`, src/utils/genetic_operators.cpp 317-336. -/
def polyChecks [FloorRing K] (x lb ub : List (Fl K)) (nix : Nat) (pM eta : Fl K) : Outcome Unit := do
  Prob.checkBounds lb ub nix
  if x.length ≠ lb.length then .throws .invalidArgument
  else do
    (List.range lb.length).forM (checkFiniteAt lb ub)
    if !pM.isFinite then .throws .invalidArgument
    else if !eta.isFinite then .throws .invalidArgument
    else .ok ()

/-- `polynomial_mutation`, src/utils/genetic_operators.cpp 313-338. -/
def polynomialMutation [FloorRing K] (g : Gen K σ) (pw : Fl K → Fl K → Fl K) (op : Fl.Ops K) (x lb ub : List (Fl K))
    (nix : Nat) (pM eta : Fl K) : Run σ (List (Fl K)) := do
  Run.lift (polyChecks x lb ub nix pM eta)
  polyImpl g pw op x lb ub nix pM eta

end Verif.Genetic
