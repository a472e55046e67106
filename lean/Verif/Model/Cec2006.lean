import Verif.Base.Outcome
import Mathlib.Analysis.SpecialFunctions.Pow.Real
import Mathlib.Analysis.SpecialFunctions.Trigonometric.Basic
import Mathlib.Analysis.SpecialFunctions.Log.Basic

/-!
# Model of `cec2006`, src/problems/cec2006.cpp

The functions are expressions (`E`), so that what a function reads is data; `E.eval` gives them their meaning. Simplified: real numbers
instead of doubles, the decimal constants are the decimal fractions written. A division by zero, a logarithm of a number that is not positive
and a root or a power 0.6 of a negative number give no value (`none`), and so does everything computed from it; in C++ the result is an
infinity or NaN. An access out of range is undefined behaviour.
-/

set_option autoImplicit false

namespace Verif.Cec06

open Verif

/-- expressions: the components of the decision vector, local variables, constants, and operations -/
inductive E where
  | x (i : Nat)
  | t (i : Nat)
  | q (a : ℚ)
  | pi
  | add (a b : E)
  | sub (a b : E)
  | mul (a b : E)
  | div (a b : E)
  | neg (a : E)
  | pow (a : E) (n : Nat)
  | rpow (a : E) (r : ℚ)
  | sqrt (a : E)
  | abs (a : E)
  | sin (a : E)
  | cos (a : E)
  | exp (a : E)
  | log (a : E)
  /-- `if (a < b) a else b` -/
  | less (a b : E)
  /-- `if (a < b) c else d` -/
  | ite (a b c d : E)

instance : Add E := ⟨E.add⟩
instance : Sub E := ⟨E.sub⟩
instance : Mul E := ⟨E.mul⟩
instance : Div E := ⟨E.div⟩
instance : Neg E := ⟨E.neg⟩
instance : HPow E Nat E := ⟨E.pow⟩
instance (n : Nat) : OfNat E n := ⟨E.q n⟩
instance : OfScientific E := ⟨fun m s e => E.q (OfScientific.ofScientific m s e)⟩

/-- an operation with a value only if both operands have one -/
def both (f : ℝ → ℝ → Option ℝ) : Option ℝ → Option ℝ → Option ℝ
  | some a, some b => f a b
  | _, _ => none

/-- the value of an expression, given the decision vector and the local variables -/
noncomputable def E.eval (xs : List ℝ) (ts : List (Option ℝ)) : E → Outcome (Option ℝ)
  | .x i => do let v ← Outcome.get xs i; .ok (some v)
  | .t i => Outcome.get ts i
  | .q a => .ok (some (a : ℝ))
  | .pi => .ok (some Real.pi)
  | .add a b => do let u ← a.eval xs ts; let v ← b.eval xs ts; .ok (both (fun u v => some (u + v)) u v)
  | .sub a b => do let u ← a.eval xs ts; let v ← b.eval xs ts; .ok (both (fun u v => some (u - v)) u v)
  | .mul a b => do let u ← a.eval xs ts; let v ← b.eval xs ts; .ok (both (fun u v => some (u * v)) u v)
  | .div a b => do let u ← a.eval xs ts; let v ← b.eval xs ts; .ok (both (fun u v => if v = 0 then none else some (u / v)) u v)
  | .neg a => do let u ← a.eval xs ts; .ok (u.map (fun u => -u))
  | .pow a n => do let u ← a.eval xs ts; .ok (u.map (fun u => u ^ n))
  | .rpow a r => do let u ← a.eval xs ts; .ok (u.bind (fun u => if u < 0 then none else some (u ^ (r : ℝ))))
  | .sqrt a => do let u ← a.eval xs ts; .ok (u.bind (fun u => if u < 0 then none else some (Real.sqrt u)))
  | .abs a => do let u ← a.eval xs ts; .ok (u.map (fun u => |u|))
  | .sin a => do let u ← a.eval xs ts; .ok (u.map Real.sin)
  | .cos a => do let u ← a.eval xs ts; .ok (u.map Real.cos)
  | .exp a => do let u ← a.eval xs ts; .ok (u.map Real.exp)
  | .log a => do let u ← a.eval xs ts; .ok (u.bind (fun u => if u ≤ 0 then none else some (Real.log u)))
  | .less a b => do let u ← a.eval xs ts; let v ← b.eval xs ts; .ok (both (fun u v => some (if u < v then u else v)) u v)
  | .ite a b c d => do
    let u ← a.eval xs ts
    let v ← b.eval xs ts
    match u, v with
    | some u, some v => if u < v then c.eval xs ts else d.eval xs ts
    | _, _ => .ok none

/-- component `i` of the decision vector -/
abbrev X (i : Nat) : E := .x i
/-- local variable `i` -/
abbrev T (i : Nat) : E := .t i

/-! ## the functions -/

/-- objective of g01, cec2006.cpp 289-296 -/
def obj01 : E :=
  (List.range' 4 9).foldl (fun f j => f - X j)
    (5.0 * (X 0 + X 1 + X 2 + X 3) - 5.0 * (X 0 * X 0 + X 1 * X 1 + X 2 * X 2 + X 3 * X 3))

/-- constraints of g01, cec2006.cpp 299-311 -/
def con01 : List E :=
  [2.0 * X 0 + 2.0 * X 1 + X 9 + X 10 - 10.0,
    2.0 * X 0 + 2.0 * X 2 + X 9 + X 11 - 10.0,
    2.0 * X 1 + 2.0 * X 2 + X 10 + X 11 - 10.0,
    -8.0 * X 0 + X 9,
    -8.0 * X 1 + X 10,
    -8.0 * X 2 + X 11,
    -2.0 * X 3 - X 4 + X 9,
    -2.0 * X 5 - X 6 + X 10,
    -2.0 * X 7 - X 8 + X 11]

/-- objective of g02, cec2006.cpp 316-331 -/
def obj02 : E :=
  let f1 := (List.range 20).foldl (fun f j => f + E.cos (X j) ^ 4) 0.0
  let f2 := (List.range 20).foldl (fun f j => f * E.cos (X j) * E.cos (X j)) 1.0
  let f3 := (List.range 20).foldl (fun f j => f + E.q ((j + 1 : Nat) : ℚ) * X j * X j) 0.0
  E.neg (E.abs ((f1 - 2 * f2) / E.sqrt f3))

/-- constraints of g02, cec2006.cpp 334-349 -/
def con02 : List E :=
  let g1 := (List.range 20).foldl (fun g j => g * X j) 1.0
  let g2 := (List.range 20).foldl (fun g j => g + X j) 0.0
  [0.75 - g1, g2 - 7.5 * 20]

/-- objective of g03, cec2006.cpp 354-367 -/
def obj03 : E := -(List.range 10).foldl (fun f1 j => E.sqrt 10 * f1 * X j) 1.0

/-- constraints of g03, cec2006.cpp 370-382 -/
def con03 : List E := [(List.range 10).foldl (fun f2 j => f2 + X j * X j) 0.0 - 1.0]

/-- objective of g04, cec2006.cpp 387-391 -/
def obj04 : E :=
  5.3578547 * X 2 * X 2 + 0.8356891 * X 0 * X 4 + 37.293239 * X 0 - 40792.141

/-- constraints of g04, cec2006.cpp 394-403 -/
def con04 : List E :=
  [85.334407 + 0.0056858 * X 1 * X 4 + 0.0006262 * X 0 * X 3 - 0.0022053 * X 2 * X 4 - 92.0,
    -85.334407 - 0.0056858 * X 1 * X 4 - 0.0006262 * X 0 * X 3 + 0.0022053 * X 2 * X 4,
    80.51249 + 0.0071317 * X 1 * X 4 + 0.0029955 * X 0 * X 1 + 0.0021813 * X 2 * X 2 - 110.0,
    -80.51249 - 0.0071317 * X 1 * X 4 - 0.0029955 * X 0 * X 1 - 0.0021813 * X 2 * X 2 + 90.0,
    9.300961 + 0.0047026 * X 2 * X 4 + 0.0012547 * X 0 * X 2 + 0.0019085 * X 2 * X 3 - 25.0,
    -9.300961 - 0.0047026 * X 2 * X 4 - 0.0012547 * X 0 * X 2 - 0.0019085 * X 2 * X 3 + 20.0]

/-- objective of g05, cec2006.cpp 408-412 -/
def obj05 : E :=
  3.0 * X 0 + 0.000001 * X 0 ^ 3 + 2.0 * X 1 + (0.000002 / 3.0) * X 1 ^ 3

/-- constraints of g05, cec2006.cpp 415-425 -/
def con05 : List E :=
  [1000.0 * E.sin (-X 2 - 0.25) + 1000.0 * E.sin (-X 3 - 0.25) + 894.8 - X 0,
    1000.0 * E.sin (X 2 - 0.25) + 1000.0 * E.sin (X 2 - X 3 - 0.25) + 894.8 - X 1,
    1000.0 * E.sin (X 3 - 0.25) + 1000.0 * E.sin (X 3 - X 2 - 0.25) + 1294.8,
    -X 3 + X 2 - 0.55,
    -X 2 + X 3 - 0.55]

/-- objective of g06, cec2006.cpp 430-434 -/
def obj06 : E :=
  (X 0 - 10.0) ^ 3 + (X 1 - 20.0) ^ 3

/-- constraints of g06, cec2006.cpp 437-442 -/
def con06 : List E :=
  [100.0 - (X 0 - 5.0) * (X 0 - 5.0) - (X 1 - 5.0) * (X 1 - 5.0),
    (X 0 - 6.0) * (X 0 - 6.0) + (X 1 - 5.0) * (X 1 - 5.0) - 82.81]

/-- objective of g07, cec2006.cpp 447-454 -/
def obj07 : E :=
  X 0 * X 0 + X 1 * X 1 + X 0 * X 1 - 14.0 * X 0 - 16.0 * X 1 + (X 2 - 10.0) * (X 2 - 10.0) + 4.0 * (X 3 - 5.0) * (X 3 - 5.0) + (X 4 - 3.0) * (X 4 - 3.0) + 2.0 *
    (X 5 - 1.0) * (X 5 - 1.0) + 5.0 * X 6 * X 6 + 7.0 * (X 7 - 11) * (X 7 - 11) + 2.0 * (X 8 - 10.0) * (X 8 - 10.0) + (X 9 - 7.0) * (X 9 - 7.0) + 45.0

/-- constraints of g07, cec2006.cpp 457-469 -/
def con07 : List E :=
  [-105.0 + 4.0 * X 0 + 5.0 * X 1 - 3.0 * X 6 + 9.0 * X 7,
    10.0 * X 0 - 8.0 * X 1 - 17.0 * X 6 + 2.0 * X 7,
    -8.0 * X 0 + 2.0 * X 1 + 5.0 * X 8 - 2.0 * X 9 - 12.0,
    3.0 * (X 0 - 2.0) * (X 0 - 2.0) + 4.0 * (X 1 - 3.0) * (X 1 - 3.0) + 2.0 * X 2 * X 2 - 7.0 * X 3 - 120.0,
    5.0 * X 0 * X 0 + 8.0 * X 1 + (X 2 - 6.0) * (X 2 - 6.0) - 2.0 * X 3 - 40.0,
    X 0 * X 0 + 2.0 * (X 1 - 2.0) * (X 1 - 2.0) - 2.0 * X 0 * X 1 + 14.0 * X 4 - 6.0 * X 5,
    0.5 * (X 0 - 8.0) * (X 0 - 8.0) + 2.0 * (X 1 - 4.0) * (X 1 - 4.0) + 3.0 * X 4 * X 4 - X 5 - 30.0,
    -3.0 * X 0 + 6.0 * X 1 + 12.0 * (X 8 - 8.0) * (X 8 - 8.0) - 7.0 * X 9]

/-- objective of g08, cec2006.cpp 474-479 -/
def obj08 : E :=
  -(E.sin (2 * E.pi * X 0)) ^ 3 * E.sin (2 * E.pi * X 1) / (X 0 ^ 3 * (X 0 + X 1))

/-- constraints of g08, cec2006.cpp 482-487 -/
def con08 : List E :=
  [X 0 * X 0 - X 1 + 1.0,
    1.0 - X 0 + (X 1 - 4.0) * (X 1 - 4.0)]

/-- objective of g09, cec2006.cpp 502-508 -/
def obj09 : E :=
  (X 0 - 10.0) * (X 0 - 10.0) + 5.0 * (X 1 - 12.0) * (X 1 - 12.0) + X 2 ^ 4 + 3.0 * (X 3 - 11.0) * (X 3 - 11.0) + 10.0 * X 4 ^ 6 + 7.0 * X 5 * X 5 + X 6 ^ 4 -
    4.0 * X 5 * X 6 - 10.0 * X 5 - 8.0 * X 6

/-- constraints of g09, cec2006.cpp 511-518 -/
def con09 : List E :=
  [-127.0 + 2 * X 0 * X 0 + 3.0 * X 1 ^ 4 + X 2 + 4.0 * X 3 * X 3 + 5.0 * X 4,
    -282.0 + 7.0 * X 0 + 3.0 * X 1 + 10.0 * X 2 * X 2 + X 3 - X 4,
    -196.0 + 23.0 * X 0 + X 1 * X 1 + 6.0 * X 5 * X 5 - 8.0 * X 6,
    4.0 * X 0 * X 0 + X 1 * X 1 - 3.0 * X 0 * X 1 + 2.0 * X 2 * X 2 + 5.0 * X 5 - 11.0 * X 6]

/-- objective of g10, cec2006.cpp 523-527 -/
def obj10 : E :=
  X 0 + X 1 + X 2

/-- constraints of g10, cec2006.cpp 530-539 -/
def con10 : List E :=
  [-1.0 + 0.0025 * (X 3 + X 5),
    -1.0 + 0.0025 * (X 4 + X 6 - X 3),
    -1.0 + 0.01 * (X 7 - X 4),
    -X 0 * X 5 + 833.33252 * X 3 + 100.0 * X 0 - 83333.333,
    -X 1 * X 6 + 1250.0 * X 4 + X 1 * X 3 - 1250.0 * X 3,
    -X 2 * X 7 + 1250000.0 + X 2 * X 4 - 2500.0 * X 4]

/-- objective of g11, cec2006.cpp 544-548 -/
def obj11 : E :=
  X 0 * X 0 + (X 1 - 1.0) * (X 1 - 1.0)

/-- constraints of g11, cec2006.cpp 551-555 -/
def con11 : List E :=
  [X 1 - X 0 * X 0]

/-- objective of g12, cec2006.cpp 560-564 -/
def obj12 : E :=
  -(100.0 - (X 0 - 5.0) * (X 0 - 5.0) - (X 1 - 5.0) * (X 1 - 5.0) - (X 2 - 5.0) * (X 2 - 5.0)) / 100.0

/-- the centres of the spheres, in the order of the loops, cec2006.cpp 573-575 -/
def centres12 : List (Nat × Nat × Nat) :=
  (List.range' 1 9).flatMap (fun i => (List.range' 1 9).flatMap (fun j => (List.range' 1 9).map (fun k => (i, j, k))))

/-- the value for one sphere, cec2006.cpp 572 and 576 -/
def gt12 (p : Nat × Nat × Nat) : E :=
  (X 0 - E.q p.1) * (X 0 - E.q p.1) + (X 1 - E.q p.2.1) * (X 1 - E.q p.2.1) + (X 2 - E.q p.2.2) * (X 2 - E.q p.2.2) - 0.0625

/-- constraints of g12, cec2006.cpp 567-581 -/
def con12 : List E := [centres12.foldl (fun c p => E.less (gt12 p) c) (gt12 (1, 1, 1))]

/-- objective of g13, cec2006.cpp 586-590 -/
def obj13 : E :=
  E.exp (X 0 * X 1 * X 2 * X 3 * X 4)

/-- constraints of g13, cec2006.cpp 593-599 -/
def con13 : List E :=
  [X 0 * X 0 + X 1 * X 1 + X 2 * X 2 + X 3 * X 3 + X 4 * X 4 - 10.0,
    X 1 * X 2 - 5.0 * X 3 * X 4,
    X 0 ^ 3 + X 1 ^ 3 + 1.0]

/-- the constants of g14, cec2006.cpp 608 -/
def c14 : List E := [-6.089, -17.164, -34.054, -5.914, -24.721, -14.986, -24.100, -10.708, -26.662, -22.179]

/-- objective of g14, cec2006.cpp 604-616 -/
def obj14 : E :=
  let sumlog := (List.range 10).foldl (fun s i => s + X i) 0.0
  (List.range 10).foldl (fun s i => s + X i * (c14.getD i 0 + E.log (X i / sumlog))) 0.0

/-- constraints of g14, cec2006.cpp 619-625 -/
def con14 : List E :=
  [X 0 + 2.0 * X 1 + 2.0 * X 2 + X 5 + X 9 - 2.0,
    X 3 + 2.0 * X 4 + X 5 + X 6 - 1.0,
    X 2 + X 6 + X 7 + 2.0 * X 8 + X 9 - 1.0]

/-- objective of g15, cec2006.cpp 630-634 -/
def obj15 : E :=
  1000.0 - X 0 ^ 2 - 2.0 * X 1 * X 1 - X 2 * X 2 - X 0 * X 1 - X 0 * X 2

/-- constraints of g15, cec2006.cpp 637-642 -/
def con15 : List E :=
  [X 0 ^ 2 + X 1 ^ 2 + X 2 ^ 2 - 25.0,
    8.0 * X 0 + 14.0 * X 1 + 7.0 * X 2 - 56.0]

/-- the local variables `Y` and `C` of g16 in the order of the assignments, cec2006.cpp 657-690 and 710-743 -/
def temps16 : List E :=
  [X 1 + X 2 + 41.6,
    0.024 * X 3 - 4.62,
    (12.5 / T 1) + 12.0,
    0.0003535 * X 0 ^ 2 + 0.5311 * X 0 + 0.08705 * T 2 * X 0,
    0.052 * X 0 + 78.0 + 0.002377 * T 2 * X 0,
    T 3 / T 4,
    19.0 * T 5,
    0.04782 * (X 0 - T 5) + ((0.1956 * (X 0 - T 5) ^ 2) / X 1) + 0.6376 * T 6 + 1.594 * T 5,
    100 * X 1,
    X 0 - T 5 - T 6,
    0.950 - (T 7 / T 8),
    T 9 * T 10,
    X 0 - T 11 - T 6 - T 5,
    (T 11 + T 6) * 0.995,
    T 13 / T 0,
    T 13 / 3798.0,
    T 14 - (0.0663 * T 14 / T 15) - 0.3153,
    (96.82 / T 16) + 0.321 * T 0,
    1.29 * T 11 + 1.258 * T 6 + 2.29 * T 5 + 1.71 * T 12,
    1.71 * X 0 - 0.452 * T 6 + 0.580 * T 5,
    12.3 / 752.3,
    1.75 * T 2 * 0.995 * X 0,
    0.995 * T 18 + 1998.0,
    T 20 * X 0 + (T 21 / T 22),
    T 22 - 1.75 * T 2,
    3623.0 + 64.4 * X 1 + 58.4 * X 2 + (146312.0 / (T 17 + X 4)),
    0.995 * T 18 + 60.8 * X 1 + 48 * X 3 - 0.1121 * T 25 - 5095.0,
    T 24 / T 26,
    148000.0 - 331000.0 * T 27 + 40.0 * T 24 - 61.0 * T 27 * T 24,
    2324 * T 18 - 28740000 * T 2,
    14130000 - 1328.0 * T 18 - 531.0 * T 19 + (T 29 / T 22),
    (T 24 / T 27) - (T 24 / 0.52),
    1.104 - 0.72 * T 27,
    T 17 + X 4]

/-- objective of g16, cec2006.cpp 647-696 -/
def obj16 : E :=
  -(0.0000005843 * T 30 - 0.000117 * T 25 - 0.1365 - 0.00002358 * T 24 - 0.000001502 * T 28 - 0.0321 * T 23 - 0.004324 * T 11 - 0.0001 * (T 31 / T 32) -
    37.48 * (T 2 / T 22))

/-- constraints of g16, cec2006.cpp 699-784 -/
def con16 : List E :=
  [-T 6 + (0.28 / 0.72) * T 11,
    -1.5 * X 1 + X 2,
    -21.0 + 3496.0 * (T 2 / T 22),
    -(62212.0 / T 33) + 110.6 + T 0,
    213.1 - T 0,
    T 0 - 405.23,
    17.505 - T 2,
    T 2 - 1053.6667,
    11.275 - T 5,
    T 5 - 35.03,
    214.228 - T 6,
    T 6 - 665.585,
    7.458 - T 11,
    T 11 - 584.463,
    0.961 - T 12,
    T 12 - 265.916,
    1.612 - T 14,
    T 14 - 7.046,
    0.146 - T 15,
    T 15 - 0.222,
    107.99 - T 17,
    T 17 - 273.366,
    922.693 - T 18,
    T 18 - 1286.105,
    926.832 - T 19,
    T 19 - 1444.046,
    18.766 - T 23,
    T 23 - 537.141,
    1072.163 - T 24,
    T 24 - 3247.039,
    8961.448 - T 25,
    T 25 - 26844.086,
    0.063 - T 27,
    T 27 - 0.386,
    71084.33 - T 28,
    T 28 - 140000.0,
    2802713.0 - T 30,
    T 30 - 12146108.0]

/-- `aux1`, `aux2`, `aux5` and `aux4` of g17, cec2006.cpp 800-805 and 838-849 -/
def aux17 : List E :=
  [300.0 - (((X 2 * X 3) * E.cos (1.48477 - X 5)) - ((0.90798 * X 2 ^ 2) * E.cos 1.47588)) / 131.078,
    -(((X 2 * X 3) * E.cos (1.48477 + X 5)) - ((0.90798 * X 3 ^ 2) * E.cos 1.47588)) / 131.078,
    -(((X 2 * X 3) * E.sin (1.48477 + X 5)) - ((0.90798 * X 3 ^ 2) * E.sin 1.47588)) / 131.078,
    200.0 - (((X 2 * X 3) * E.sin (1.48477 - X 5)) - ((0.90798 * X 2 ^ 2) * E.sin 1.47588)) / 131.078]

/-- objective of g17, cec2006.cpp 789-826 -/
def obj17 : E :=
  let a1 := T 0
  let a2 := T 1
  let f1 := E.ite (X 0) 0.0 0 (E.ite (X 0) 300.0 (30.0 * a1) (E.ite 400.0 (X 0) 0 (31.0 * a1)))
  let f2 := E.ite (X 1) 0.0 0 (E.ite (X 1) 100.0 (28.0 * a2) (E.ite (X 1) 200.0 (29.0 * a2) (E.ite 1000.0 (X 1) 0 (30.0 * a2))))
  f1 + f2

/-- constraints of g17, cec2006.cpp 829-854 -/
def con17 : List E := [T 0 - X 0, T 1 - X 1, T 2 - X 4, T 3]

/-- objective of g18, cec2006.cpp 859-863 -/
def obj18 : E :=
  -0.5 * (X 0 * X 3 - X 1 * X 2 + X 2 * X 8 - X 4 * X 8 + X 4 * X 7 - X 5 * X 6)

/-- constraints of g18, cec2006.cpp 866-882 -/
def con18 : List E :=
  [-1.0 + X 2 ^ 2 + X 3 ^ 2,
    -1.0 + X 8 ^ 2,
    -1.0 + X 4 ^ 2 + X 5 ^ 2,
    -1.0 + X 0 ^ 2 + (X 1 - X 8) ^ 2,
    -1.0 + (X 0 - X 4) ^ 2 + (X 1 - X 5) ^ 2,
    -1.0 + (X 0 - X 6) ^ 2 + (X 1 - X 7) ^ 2,
    -1.0 + (X 2 - X 4) ^ 2 + (X 3 - X 5) ^ 2,
    -1.0 + (X 2 - X 6) ^ 2 + (X 3 - X 7) ^ 2,
    -1.0 + X 6 ^ 2 + (X 7 - X 8) ^ 2,
    -X 0 * X 3 + X 1 * X 2,
    -X 2 * X 8,
    X 4 * X 8,
    -X 4 * X 7 + X 5 * X 6]

/-- the constants of g19, cec2006.cpp 893-899, 924-937 -/
def b19 : List E := [-40.0, -2.0, -0.25, -4.0, -4.0, -1.0, -40.0, -60.0, 5.0, 1.0]
@[inherit_doc b19] def c19 : List (List E) :=
  [[30.0, -20.0, -10.0, 32.0, -10.0], [-20.0, 39.0, -6.0, -31.0, 32.0], [-10.0, -6.0, 10.0, -6.0, -10.0], [32.0, -31.0, -6.0, 39.0, -20.0],
    [-10.0, 32.0, -10.0, -20.0, 30.0]]
@[inherit_doc b19] def d19 : List E := [4.0, 8.0, 10.0, 6.0, 2.0]
@[inherit_doc b19] def e19 : List E := [-15.0, -27.0, -36.0, -18.0, -12.0]
@[inherit_doc b19] def a19 : List (List E) :=
  [[-16.0, 2.0, 0.0, 1.0, 0.0], [0.0, -2.0, 0.0, 0.4, 2.0], [-3.5, 0.0, 2.0, 0.0, 0.0], [0.0, -2.0, 0.0, -4.0, -1.0],
    [0.0, -9.0, -2.0, 1.0, -2.8], [2.0, 0.0, -4.0, 0.0, 0.0], [-1.0, -1.0, -1.0, -1.0, -1.0], [-1.0, -2.0, -3.0, -2.0, -1.0],
    [1.0, 2.0, 3.0, 4.0, 5.0], [1.0, 1.0, 1.0, 1.0, 1.0]]

/-- objective of g19, cec2006.cpp 887-916 -/
def obj19 : E :=
  let sum1 := (List.range 10).foldl (fun s i => s + b19.getD i 0 * X i) 0.0
  let sum2 := (List.range 5).foldl (fun s i => (List.range 5).foldl (fun s j => s + (c19.getD i []).getD j 0 * X (10 + i) * X (10 + j)) s) 0.0
  let sum3 := (List.range 5).foldl (fun s i => s + d19.getD i 0 * X (10 + i) ^ 3) 0.0
  E.neg (sum1 - sum2 - 2.0 * sum3)

/-- constraints of g19, cec2006.cpp 919-948 -/
def con19 : List E :=
  (List.range 5).map (fun j =>
    let sum1 := (List.range 5).foldl (fun s i => s + (c19.getD i []).getD j 0 * X (10 + i)) 0.0
    let sum2 := (List.range 10).foldl (fun s i => s + (a19.getD i []).getD j 0 * X i) 0.0
    E.neg ((2.0 * sum1) + (3.0 * d19.getD j 0 * X (10 + j) ^ 2) + e19.getD j 0 - sum2))

/-- the constants of g20, cec2006.cpp 955-956 and 970-974; `A` and `B` repeat after twelve values -/
def a20 : List E := [0.0693, 0.0577, 0.05, 0.2, 0.26, 0.55, 0.06, 0.1, 0.12, 0.18, 0.1, 0.09]
@[inherit_doc a20] def b20 : List E := [44.094, 58.12, 58.12, 137.4, 120.9, 170.9, 62.501, 84.94, 133.425, 82.507, 46.07, 60.097]
@[inherit_doc a20] def c20 : List E := [123.7, 31.7, 45.7, 14.7, 84.7, 27.7, 49.7, 7.1, 2.1, 17.7, 0.85, 0.64]
@[inherit_doc a20] def d20 : List E := [31.244, 36.12, 34.784, 92.7, 82.7, 91.6, 56.708, 82.7, 80.8, 64.517, 49.4, 49.1]
@[inherit_doc a20] def e20 : List E := [0.1, 0.3, 0.4, 0.3, 0.6, 0.3]

/-- objective of g20, cec2006.cpp 953-963 -/
def obj20 : E := (List.range 24).foldl (fun f j => f + (a20 ++ a20).getD j 0 * X j) 0.0

/-- `sum1`, `sum2`, `sumtotal` and the later `sum1` of g20, cec2006.cpp 977-994; the second computation of `sum2` gives the first value. -/
def temps20 : List E :=
  [(List.range 12).foldl (fun s j => s + X j / (b20 ++ b20).getD j 0) 0.0,
    (List.range' 12 12).foldl (fun s j => s + X j / (b20 ++ b20).getD j 0) 0.0,
    (List.range 24).foldl (fun s j => s + X j) 0.0,
    (List.range 12).foldl (fun s j => s + X j / d20.getD j 0) 0.0]

/-- constraints of g20, cec2006.cpp 966-1002 -/
def con20 : List E :=
  (List.range 12).map (fun i => (X (i + 12) / ((b20 ++ b20).getD (i + 12) 0 * T 1)) - ((c20.getD i 0 * X i) / (40.0 * b20.getD i 0 * T 0))) ++
  [T 2 - 1.0, T 3 + (0.7302 * 530.0 * (14.7 / 40)) * T 1 - 1.671] ++
  (List.range 3).map (fun j => (X j + X (j + 12)) / (T 2 + e20.getD j 0)) ++
  (List.range' 3 3).map (fun j => (X (j + 3) + X (j + 15)) / (T 2 + e20.getD j 0))

/-- objective of g21, cec2006.cpp 1007-1011 -/
def obj21 : E :=
  X 0

/-- constraints of g21, cec2006.cpp 1014-1025 -/
def con21 : List E :=
  [-300.0 * X 2 + 7500 * X 4 - 7500 * X 5 - 25.0 * X 3 * X 4 + 25.0 * X 3 * X 5 + X 2 * X 3,
    100.0 * X 1 + 155.365 * X 3 + 2500 * X 6 - X 1 * X 3 - 25.0 * X 3 * X 6 - 15536.5,
    -X 4 + E.log (-X 3 + 900.0),
    -X 5 + E.log (X 3 + 300.0),
    -X 6 + E.log (-2.0 * X 3 + 700.0),
    -X 0 + 35.0 * (E.rpow (X 1) 0.6) + 35.0 * (E.rpow (X 2) 0.6)]

/-- objective of g22, cec2006.cpp 1030-1034 -/
def obj22 : E :=
  X 0

/-- constraints of g22, cec2006.cpp 1037-1062 -/
def con22 : List E :=
  [X 4 - 100000.0 * X 7 + 10000000.0,
    X 5 + 100000.0 * X 7 - 100000.0 * X 8,
    X 6 + 100000.0 * X 8 - 50000000.0,
    X 4 + 100000.0 * X 9 - 33000000.0,
    X 5 + 100000 * X 10 - 44000000.0,
    X 6 + 100000 * X 11 - 66000000.0,
    X 4 - 120.0 * X 1 * X 12,
    X 5 - 80.0 * X 2 * X 13,
    X 6 - 40.0 * X 3 * X 14,
    X 7 - X 10 + X 15,
    X 8 - X 11 + X 16,
    -X 17 + E.log (X 9 - 100.0),
    -X 18 + E.log (-X 7 + 300.0),
    -X 19 + E.log (X 15),
    -X 20 + E.log (-X 8 + 400.0),
    -X 21 + E.log (X 16),
    -X 7 - X 9 + X 12 * X 17 - X 12 * X 18 + 400.0,
    X 7 - X 8 - X 10 + X 13 * X 19 - X 13 * X 20 + 400.0,
    X 8 - X 11 - 4.60517 * X 14 + X 14 * X 21 + 100.0,
    -X 0 + (E.rpow (X 1) 0.6) + (E.rpow (X 2) 0.6) + (E.rpow (X 3) 0.6)]

/-- objective of g23, cec2006.cpp 1067-1071 -/
def obj23 : E :=
  -9.0 * X 4 - 15.0 * X 7 + 6.0 * X 0 + 16.0 * X 1 + 10.0 * (X 5 + X 6)

/-- constraints of g23, cec2006.cpp 1074-1085 -/
def con23 : List E :=
  [X 0 + X 1 - X 2 - X 3,
    0.03 * X 0 + 0.01 * X 1 - X 8 * (X 2 + X 3),
    X 2 + X 5 - X 4,
    X 3 + X 6 - X 7,
    X 8 * X 2 + 0.02 * X 5 - 0.025 * X 4,
    X 8 * X 3 + 0.02 * X 6 - 0.015 * X 7]

/-- objective of g24, cec2006.cpp 1090-1094 -/
def obj24 : E :=
  -X 0 - X 1

/-- constraints of g24, cec2006.cpp 1097-1103 -/
def con24 : List E :=
  [-2.0 * X 0 ^ 4 + 8.0 * X 0 ^ 3 - 8.0 * X 0 ^ 2 + X 1 - 2.0,
    -4.0 * X 0 ^ 4 + 32.0 * X 0 ^ 3 - 88.0 * X 0 ^ 2 + 96.0 * X 0 + X 1 - 36.0]

/-! ## the tables -/

/-- one problem: the tables and the functions -/
structure Prob where
  dim : Nat
  nec : Nat
  nic : Nat
  lb : List ℚ
  ub : List ℚ
  best : List ℚ
  temps : List E
  obj : E
  con : List E

/-- the number of components, cec2006.cpp 62-63 -/
def dims : List Nat := [13, 20, 10, 5, 4, 2, 10, 2, 7, 8, 2, 3, 5, 10, 3, 5, 6, 9, 15, 24, 7, 22, 9, 2]

/-- the numbers of equality constraints, cec2006.cpp 66 -/
def necs : List Nat := [0, 0, 1, 0, 3, 0, 0, 0, 0, 0, 1, 0, 3, 3, 2, 0, 4, 0, 0, 14, 5, 19, 4, 0]

/-- the numbers of inequality constraints, cec2006.cpp 69 -/
def nics : List Nat := [9, 2, 0, 6, 2, 2, 8, 2, 4, 6, 0, 1, 0, 0, 0, 38, 0, 13, 5, 6, 1, 1, 2, 2]

/-- the bounds, cec2006.cpp 72-102 -/
def bounds : List (List ℚ × List ℚ) :=
  [([0.0, 0.0, 0.0, 0.0, 0.0, 0.0, 0.0, 0.0, 0.0, 0.0, 0.0, 0.0, 0.0], [1.0, 1.0, 1.0, 1.0, 1.0, 1.0, 1.0, 1.0, 1.0, 100.0, 100.0, 100.0, 1.0]),
   ([0.0, 0.0, 0.0, 0.0, 0.0, 0.0, 0.0, 0.0, 0.0, 0.0, 0.0, 0.0, 0.0, 0.0, 0.0, 0.0, 0.0, 0.0, 0.0, 0.0], [10.0, 10.0, 10.0, 10.0, 10.0, 10.0, 10.0,
     10.0, 10.0, 10.0, 10.0, 10.0, 10.0, 10.0, 10.0, 10.0, 10.0, 10.0, 10.0, 10.0]),
   ([0.0, 0.0, 0.0, 0.0, 0.0, 0.0, 0.0, 0.0, 0.0, 0.0], [1.0, 1.0, 1.0, 1.0, 1.0, 1.0, 1.0, 1.0, 1.0, 1.0]),
   ([78.0, 33.0, 27.0, 27.0, 27.0], [102.0, 45.0, 45.0, 45.0, 45.0]),
   ([0.0, 0.0, -0.55, -0.55], [1200.0, 1200.0, 0.55, 0.55]),
   ([13.0, 0.0], [100.0, 100.0]),
   ([-10.0, -10.0, -10.0, -10.0, -10.0, -10.0, -10.0, -10.0, -10.0, -10.0], [10.0, 10.0, 10.0, 10.0, 10.0, 10.0, 10.0, 10.0, 10.0, 10.0]),
   ([0.0, 0.0], [10.0, 10.0]),
   ([-10.0, -10.0, -10.0, -10.0, -10.0, -10.0, -10.0], [10.0, 10.0, 10.0, 10.0, 10.0, 10.0, 10.0]),
   ([100.0, 1000.0, 1000.0, 10.0, 10.0, 10.0, 10.0, 10.0], [10000.0, 10000.0, 10000.0, 1000.0, 1000.0, 1000.0, 1000.0, 1000.0]),
   ([-1.0, -1.0], [1.0, 1.0]),
   ([0.0, 0.0, 0.0], [10.0, 10.0, 10.0]),
   ([-2.3, -2.3, -3.2, -3.2, -3.2], [2.3, 2.3, 3.2, 3.2, 3.2]),
   ([0.0, 0.0, 0.0, 0.0, 0.0, 0.0, 0.0, 0.0, 0.0, 0.0], [10.0, 10.0, 10.0, 10.0, 10.0, 10.0, 10.0, 10.0, 10.0, 10.0]),
   ([0.0, 0.0, 0.0], [10.0, 10.0, 10.0]),
   ([704.4148, 68.6, 0.0, 193.0, 25.0], [906.3855, 288.88, 134.75, 287.0966, 84.1988]),
   ([0.0, 0.0, 340.0, 340.0, -1000.0, 0.0], [400.0, 1000.0, 420.0, 420.0, 1000.0, 0.5236]),
   ([-10.0, -10.0, -10.0, -10.0, -10.0, -10.0, -10.0, -10.0, 0.0], [10.0, 10.0, 10.0, 10.0, 10.0, 10.0, 10.0, 10.0, 20.0]),
   ([0.0, 0.0, 0.0, 0.0, 0.0, 0.0, 0.0, 0.0, 0.0, 0.0, 0.0, 0.0, 0.0, 0.0, 0.0], [10.0, 10.0, 10.0, 10.0, 10.0, 10.0, 10.0, 10.0, 10.0, 10.0, 10.0,
     10.0, 10.0, 10.0, 10.0]),
   ([0.0, 0.0, 0.0, 0.0, 0.0, 0.0, 0.0, 0.0, 0.0, 0.0, 0.0, 0.0, 0.0, 0.0, 0.0, 0.0, 0.0, 0.0, 0.0, 0.0, 0.0, 0.0, 0.0, 0.0], [10.0, 10.0, 10.0,
     10.0, 10.0, 10.0, 10.0, 10.0, 10.0, 10.0, 10.0, 10.0, 10.0, 10.0, 10.0, 10.0, 10.0, 10.0, 10.0, 10.0, 10.0, 10.0, 10.0, 10.0]),
   ([0.0, 0.0, 0.0, 100.0, 6.3, 5.9, 4.5], [1000.0, 40.0, 40.0, 300.0, 6.7, 6.4, 6.25]),
   ([0.0, 0.0, 0.0, 0.0, 0.0, 0.0, 0.0, 100.0, 100.0, 100.01, 100.0, 100.0, 0.0, 0.0, 0.0, 0.01, 0.01, -4.7, -4.7, -4.7, -4.7, -4.7], [20000.0, 1e6,
     1e6, 1e6, 4e7, 4e7, 4e7, 299.99, 399.99, 300, 400, 600, 500, 500, 500, 300.0, 400.0, 6.25, 6.25, 6.25, 6.25, 6.25]),
   ([0.0, 0.0, 0.0, 0.0, 0.0, 0.0, 0.0, 0.0, 0.01], [300.0, 300.0, 100.0, 200.0, 100.0, 300.0, 100.0, 200.0, 0.03]),
   ([0.0, 0.0], [3.0, 4.0])]

/-- the best solutions known, cec2006.cpp 105-170 -/
def bests : List (List ℚ) :=
  [[1.0, 1.0, 1.0, 1.0, 1.0, 1.0, 1.0, 1.0, 1.0, 3.0, 3.0, 3.0, 1.0],
   [3.16246061572185, 3.12833142812967, 3.09479212988791, 3.06145059523469, 3.02792915885555, 2.99382606701730, 2.95866871765285, 2.92184227312450,
     0.49482511456933, 0.48835711005490, 0.48231642711865, 0.47664475092742, 0.47129550835493, 0.46623099264167, 0.46142004984199, 0.45683664767217,
     0.45245876903267, 0.44826762241853, 0.44424700958760, 0.44038285956317],
   [0.31624357647283069, 0.316243577414338339, 0.316243578012345927, 0.316243575664017895, 0.316243578205526066, 0.31624357738855069,
     0.316243575472949512, 0.316243577164883938, 0.316243578155920302, 0.316243576147374916],
   [78, 33, 29.9952560256815985, 45, 36.7758129057882073],
   [679.945148297028709, 1026.06697600004691, 0.118876369094410433, -0.39623348521517826],
   [14.09500000000000064, 0.8429607892154795668],
   [2.17199634142692, 2.3636830416034, 8.77392573913157, 5.09598443745173, 0.990654756560493, 1.43057392853463, 1.32164415364306, 9.82872576524495,
     8.2800915887356, 8.3759266477347],
   [1.22797135260752599, 4.24537336612274885],
   [2.33049935147405174, 1.95137236847114592, -0.477541399510615805, 4.36572624923625874, -0.624486959100388983, 1.03813099410962173,
     1.5942266780671519],
   [579.306685017979589, 1359.97067807935605, 5109.97065743133317, 182.01769963061534, 295.601173702746792, 217.982300369384632, 286.41652592786852,
     395.601173702746735],
   [-0.707036070037170616, 0.500000004333606807],
   [5.0, 5.0, 5.0],
   [-1.71714224003, 1.59572124049468, 1.8272502406271, -0.763659881912867, -0.76365986736498],
   [0.0406684113216282, 0.147721240492452, 0.783205732104114, 0.00141433931889084, 0.485293636780388, 0.000693183051556082, 0.0274052040687766,
     0.0179509660214818, 0.0373268186859717, 0.0968844604336845],
   [3.51212812611795133, 0.216987510429556135, 3.55217854929179921],
   [705.174537070090537, 68.5999999999999943, 102.899999999999991, 282.324931593660324, 37.5841164258054832],
   [201.784467214523659, 99.9999999999999005, 383.071034852773266, 420, -10.9076584514292652, 0.0731482312084287128],
   [-0.657776192427943163, -0.153418773482438542, 0.323413871675240938, -0.946257611651304398, -0.657776194376798906, -0.753213434632691414,
     0.323413874123576972, -0.346462947962331735, 0.59979466285217542],
   [1.66991341326291344e-17, 3.95378229282456509e-16, 3.94599045143233784, 1.06036597479721211e-16, 3.2831773458454161, 9.99999999999999822,
     1.12829414671605333e-17, 1.2026194599794709e-17, 2.50706276000769697e-15, 2.24624122987970677e-15, 0.370764847417013987, 0.278456024942955571,
     0.523838487672241171, 0.388620152510322781, 0.298156764974678579],
   [1.28582343498528086e-18, 4.83460302526130664e-34, 0, 0, 6.30459929660781851e-18, 7.57192526201145068e-34, 5.03350698372840437e-34,
     9.28268079616618064e-34, 0, 1.76723384525547359e-17, 3.55686101822965701e-34, 2.99413850083471346e-34, 0.158143376337580827,
     2.29601774161699833e-19, 1.06106938611042947e-18, 1.31968344319506391e-18, 0.530902525044209539, 0, 2.89148310257773535e-18,
     3.34892126180666159e-18, 0, 0.310999974151577319, 5.41244666317833561e-05, 4.84993165246959553e-16],
   [193.724510070034967, 5.56944131553368433e-27, 17.3191887294084914, 100.047897801386839, 6.68445185362377892, 5.99168428444264833,
     6.21451648886070451],
   [236.430975504001054, 135.82847151732463, 204.818152544824585, 6446.54654059436416, 3007540.83940215595, 4074188.65771341929, 32918270.5028952882,
     130.075408394314167, 170.817294970528621, 299.924591605478554, 399.258113423595205, 330.817294971142758, 184.51831230897065, 248.64670239647424,
     127.658546694545862, 269.182627528746707, 160.000016724090955, 5.29788288102680571, 5.13529735903945728, 5.59531526444068827,
     5.43444479314453499, 5.07517453535834395],
   [0.00510000000000259465, 99.9947000000000514, 9.01920162996045897e-18, 99.9999000000000535, 0.000100000000027086086, 2.75700683389584542e-14,
     99.9999999999999574, 200, 0.0100000100000100008],
   [2.32952019747762, 3.17849307411774]]

/-- the objective functions, cec2006.cpp 1113-1119 -/
def objs : List E :=
  [obj01, obj02, obj03, obj04, obj05, obj06, obj07, obj08, obj09, obj10, obj11, obj12, obj13, obj14, obj15, obj16, obj17, obj18, obj19, obj20,
    obj21, obj22, obj23, obj24]

/-- the constraint functions, cec2006.cpp 1121-1133 -/
def cons : List (List E) :=
  [con01, con02, con03, con04, con05, con06, con07, con08, con09, con10, con11, con12, con13, con14, con15, con16, con17, con18, con19, con20,
    con21, con22, con23, con24]

/-- the local variables of g16, g17 and g20, none in the others -/
def temps (id : Nat) : List E := if id = 16 then temps16 else if id = 17 then aux17 else if id = 20 then temps20 else []

/-- the constructor, cec2006.cpp 178-185, with the tables looked up -/
def construct (id : Nat) : Outcome Prob :=
  if id < 1 ∨ 24 < id then .throws .invalidArgument
  else do
    let d ← Outcome.get dims (id - 1)
    let ne ← Outcome.get necs (id - 1)
    let ni ← Outcome.get nics (id - 1)
    let b ← Outcome.get bounds (id - 1)
    let k ← Outcome.get bests (id - 1)
    let o ← Outcome.get objs (id - 1)
    let c ← Outcome.get cons (id - 1)
    .ok ⟨d, ne, ni, b.1, b.2, k, temps id, o, c⟩

/-- the local variables, in the order of the assignments -/
noncomputable def runTemps (xs : List ℝ) : List (Option ℝ) → List E → Outcome (List (Option ℝ))
  | ts, [] => .ok ts
  | ts, e :: es => do
    let v ← e.eval xs ts
    runTemps xs (ts ++ [v]) es

/-- the values written into the vector of constraints, from the start; writing past its end is undefined behaviour -/
def write (n : Nat) (vs : List (Option ℝ)) : Outcome (List (Option ℝ)) :=
  if n < vs.length then .ub else .ok (vs ++ List.replicate (n - vs.length) (some 0))

/-- `cec2006::fitness`, cec2006.cpp 231-234 and 265-276 -/
noncomputable def fitness (p : Prob) (xs : List ℝ) : Outcome (List (Option ℝ)) := do
  let ts ← runTemps xs [] p.temps
  let vs ← p.con.mapM (fun e => e.eval xs ts)
  let c ← write (p.nec + p.nic) vs
  let f ← p.obj.eval xs ts
  .ok (f :: c)

end Verif.Cec06
