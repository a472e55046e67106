import Verif.Model.Problem
import Verif.Base.Sort

/-!
# Model of include/pagmo/utils/gradients_and_hessians.hpp

The callable is an arbitrary function that may throw. Arithmetic is a parameter.
-/

set_option autoImplicit false

namespace Verif.Grad

open Verif Prob

variable {K : Type} [Field K] [LinearOrder K]

/-- `std::max(std::abs(x[j]), 1.0) * dx`, gradients_and_hessians.hpp 76, 139, 209. -/
def stepSize (op : Fl.Ops K) (xj dx : Fl K) : Fl K := op.mul (Fl.stdMax (Fl.abs xj) op.one) dx

/-- gradients_and_hessians.hpp 83-87, one iteration. -/
def pushChanged (f0 fn : List (Fl K)) (j : Nat) (ret : List (Nat × Nat)) (i : Nat) : Outcome (List (Nat × Nat)) := do
  let a ← Outcome.get fn i
  let b ← Outcome.get f0 i
  .ok (if !(Fl.eq a b) then ret ++ [(i, j)] else ret)

/-- Body of the loop of `estimate_sparsity`, gradients_and_hessians.hpp 76-88. The state is `x_new` and `retval`. -/
def sparsityStep (op : Fl.Ops K) (f : List (Fl K) → User (List (Fl K))) (x : List (Fl K)) (dx : Fl K) (f0 : List (Fl K))
    (s : List (Fl K) × List (Nat × Nat)) (j : Nat) : Outcome (List (Fl K) × List (Nat × Nat)) := do
  let xj ← Outcome.get x j
  let xn ← Outcome.set s.1 j (op.add xj (stepSize op xj dx))
  let fn ← ofUser (f xn)
  if fn.length ≠ f0.length then .throws .invalidArgument
  else do
    let ret ← (List.range fn.length).foldlM (pushChanged f0 fn j) s.2
    let xn ← Outcome.set xn j xj
    .ok (xn, ret)

/-- `estimate_sparsity`, gradients_and_hessians.hpp 69-93. -/
def estimateSparsity (srt : (Nat × Nat → Nat × Nat → Bool) → List (Nat × Nat) → List (Nat × Nat)) (op : Fl.Ops K)
    (f : List (Fl K) → User (List (Fl K))) (x : List (Fl K)) (dx : Fl K) : Outcome (List (Nat × Nat)) := do
  let f0 ← ofUser (f x)
  let s ← (List.range x.length).foldlM (sparsityStep op f x dx f0) (x, [])
  stdSort srt pairLt s.2

/-- Writing the column `j` of the gradient, gradients_and_hessians.hpp 148-150 and 227-235: `val i` is the value
computed for component `i`. -/
def writeColumn (nx m j : Nat) (val : Nat → Outcome (Fl K)) (g : List (Fl K)) : Outcome (List (Fl K)) :=
  (List.range m).foldlM (fun g i => do
    let v ← val i
    Outcome.set g (j + i * nx) v) g

/-- `(f_r[i] - f_l[i]) / 2. / h`, gradients_and_hessians.hpp 149. -/
def lowValue (op : Fl.Ops K) (fr fl : List (Fl K)) (h : Fl K) (i : Nat) : Outcome (Fl K) := do
  let r ← Outcome.get fr i
  let l ← Outcome.get fl i
  .ok (op.div (op.div (op.sub r l) (.fin 2)) h)

/-- Body of the loop of `estimate_gradient`, gradients_and_hessians.hpp 139-152. The state is `x_r`, `x_l` and
`gradient`. -/
def gradientStep (op : Fl.Ops K) (f : List (Fl K) → User (List (Fl K))) (x : List (Fl K)) (dx : Fl K) (m : Nat)
    (s : (List (Fl K) × List (Fl K)) × List (Fl K)) (j : Nat) :
    Outcome ((List (Fl K) × List (Fl K)) × List (Fl K)) := do
  let xj ← Outcome.get x j
  let h := stepSize op xj dx
  let xr ← Outcome.set s.1.1 j (op.add xj h)
  let xl ← Outcome.set s.1.2 j (op.sub xj h)
  let fr ← ofUser (f xr)
  let fl ← ofUser (f xl)
  if fr.length ≠ m ∨ fl.length ≠ m then .throws .invalidArgument
  else do
    let g ← writeColumn x.length fr.length j (lowValue op fr fl h) s.2
    let xr ← Outcome.set xr j xj
    let xl ← Outcome.set xl j xj
    .ok ((xr, xl), g)

/-- `estimate_gradient`, gradients_and_hessians.hpp 132-155. -/
def estimateGradient (op : Fl.Ops K) (f : List (Fl K) → User (List (Fl K))) (x : List (Fl K)) (dx : Fl K) :
    Outcome (List (Fl K)) := do
  let f0 ← ofUser (f x)
  let s ← (List.range x.length).foldlM (gradientStep op f x dx f0.length)
    ((x, x), List.replicate (f0.length * x.length) op.zero)
  .ok s.2

/-- The value computed in gradients_and_hessians.hpp 228-234. -/
def highValue (op : Fl.Ops K) (r1 l1 r2 l2 r3 l3 : List (Fl K)) (h : Fl K) (i : Nat) : Outcome (Fl K) := do
  let fr1 ← Outcome.get r1 i
  let fl1 ← Outcome.get l1 i
  let fr2 ← Outcome.get r2 i
  let fl2 ← Outcome.get l2 i
  let fr3 ← Outcome.get r3 i
  let fl3 ← Outcome.get l3 i
  let m1 := op.div (op.sub fr1 fl1) (.fin 2)
  let m2 := op.div (op.sub fr2 fl2) (.fin 4)
  let m3 := op.div (op.sub fr3 fl3) (.fin 6)
  let fifteen := op.mul (.fin 15) m1
  let six := op.mul (.fin 6) m2
  let ten := op.mul (.fin 10) h
  .ok (op.div (op.add (op.sub fifteen six) m3) ten)

/-- Body of the loop of `estimate_gradient_h`, gradients_and_hessians.hpp 209-241. The six work vectors `x_r1`, … are
equal to `x` except at position `j` while the body runs and equal to `x` in between; they are kept as one list here. -/
def gradientHStep (op : Fl.Ops K) (f : List (Fl K) → User (List (Fl K))) (x : List (Fl K)) (dx : Fl K) (m : Nat)
    (s : List (Fl K) × List (Fl K)) (j : Nat) : Outcome (List (Fl K) × List (Fl K)) := do
  let xj ← Outcome.get x j
  let h := stepSize op xj dx
  let xr1 ← Outcome.set s.1 j (op.add xj h)
  let xl1 ← Outcome.set s.1 j (op.sub xj h)
  let xr2 ← Outcome.set s.1 j (op.add xj (op.mul (.fin 2) h))
  let xl2 ← Outcome.set s.1 j (op.sub xj (op.mul (.fin 2) h))
  let xr3 ← Outcome.set s.1 j (op.add xj (op.mul (.fin 3) h))
  let xl3 ← Outcome.set s.1 j (op.sub xj (op.mul (.fin 3) h))
  let r1 ← ofUser (f xr1)
  let l1 ← ofUser (f xl1)
  let r2 ← ofUser (f xr2)
  let l2 ← ofUser (f xl2)
  let r3 ← ofUser (f xr3)
  let l3 ← ofUser (f xl3)
  if r1.length ≠ m ∨ l1.length ≠ m ∨ r2.length ≠ m ∨ l2.length ≠ m ∨ r3.length ≠ m ∨ l3.length ≠ m then
    .throws .invalidArgument
  else do
    let g ← writeColumn x.length r1.length j (highValue op r1 l1 r2 l2 r3 l3 h) s.2
    let xr1 ← Outcome.set xr1 j xj
    .ok (xr1, g)

/-- `estimate_gradient_h`, gradients_and_hessians.hpp 200-244. -/
def estimateGradientH (op : Fl.Ops K) (f : List (Fl K) → User (List (Fl K))) (x : List (Fl K)) (dx : Fl K) :
    Outcome (List (Fl K)) := do
  let f0 ← ofUser (f x)
  let s ← (List.range x.length).foldlM (gradientHStep op f x dx f0.length)
    (x, List.replicate (f0.length * x.length) op.zero)
  .ok s.2

end Verif.Grad
