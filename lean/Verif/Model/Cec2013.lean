import Verif.Model.Analytic
import Mathlib.Analysis.SpecialFunctions.Pow.Real
import Mathlib.Analysis.SpecialFunctions.Trigonometric.Basic

/-!
# Model of `cec2013`, src/problems/cec2013.cpp

Simplified: real numbers instead of doubles. The tables of shifts and rotation matrices (cec2013_data.hpp declares them, the definitions are
not part of the source read) are the parameters `os` and `mr`; reading past their end is undefined behaviour. The buffers `m_y` and `m_z` are
functions of the index; every function of the class writes all the entries below `nx` of a buffer before it reads one, so that what an earlier
call left there is not modelled.
-/

set_option autoImplicit false

namespace Verif.Cec13

open Verif

/-- the members of the class: the number of variables (`m_z.size()`), the shifts and the matrices, cec2013.hpp 154-160 -/
structure Ctx where
  nx : Nat
  os : List ℝ
  mr : List ℝ

/-- one of the buffers `m_y`, `m_z` -/
abbrev Vec := Nat → ℝ

/-- an entry of a vector of the tables or of the decision vector; reads past the end are excluded where they would occur -/
def entry (l : List ℝ) (i : Nat) : ℝ := l.getD i 0

/-- a loop that adds up -/
noncomputable def acc (n : Nat) (g : Nat → ℝ) : ℝ := (List.range n).foldl (fun s i => s + g i) 0

/-- `shiftfunc`, cec2013.cpp 1034-1040, with the shift at offset `o` -/
noncomputable def shift (c : Ctx) (o : Nat) (x : List ℝ) : Outcome Vec :=
  if c.nx ≤ x.length ∧ o + c.nx ≤ c.os.length then .ok (fun i => entry x i - entry c.os (o + i)) else .ub

/-- `rotatefunc`, cec2013.cpp 1042-1051, with the matrix at offset `m` -/
noncomputable def rotate (c : Ctx) (m : Nat) (v : Vec) : Outcome Vec :=
  if m + c.nx * c.nx ≤ c.mr.length then .ok (fun i => acc c.nx (fun j => v j * entry c.mr (m + (i * c.nx + j)))) else .ub

/-- the rotation, or the copy if `r_flag` is not 1, e.g. cec2013.cpp 323-327 -/
noncomputable def turn (c : Ctx) (flag : Bool) (m : Nat) (v : Vec) : Outcome Vec := if flag then rotate c m v else .ok v

/-- the number `i / (nx - 1)` -/
noncomputable def ratio (c : Ctx) (i : Nat) : ℝ := (i : ℝ) / ((c.nx : ℝ) - 1)

/-- `asyfunc`, cec2013.cpp 1053-1059: entries that are not positive keep the old contents of the buffer written to -/
noncomputable def asy (c : Ctx) (beta : ℝ) (v old : Vec) : Vec := fun i =>
  if 0 < v i then v i ^ (1 + (beta * i) / ((c.nx : ℝ) - 1) * v i ^ (0.5 : ℝ)) else old i

/-- `oszfunc`, cec2013.cpp 1061-1086; for an entry 0 the sign is 0 and so is the result, whatever the logarithm of an earlier entry left -/
noncomputable def osz (c : Ctx) (v : Vec) : Vec := fun i =>
  if i = 0 ∨ i = c.nx - 1 then
    if 0 < v i then Real.exp (Real.log |v i| + 0.049 * (Real.sin (10 * Real.log |v i|) + Real.sin (7.9 * Real.log |v i|)))
    else if v i = 0 then 0
    else -Real.exp (Real.log |v i| + 0.049 * (Real.sin (5.5 * Real.log |v i|) + Real.sin (3.1 * Real.log |v i|)))
  else v i

/-- `sphere_func`, cec2013.cpp 319-332 -/
noncomputable def sphere (c : Ctx) (o m : Nat) (flag : Bool) (x : List ℝ) : Outcome ℝ := do
  let y ← shift c o x
  let z ← turn c flag m y
  .ok (acc c.nx (fun i => z i * z i))

/-- `ellips_func`, cec2013.cpp 334-349 -/
noncomputable def ellips (c : Ctx) (o m : Nat) (flag : Bool) (x : List ℝ) : Outcome ℝ := do
  let y ← shift c o x
  let z ← turn c flag m y
  let y := osz c z
  .ok (acc c.nx (fun i => (10 : ℝ) ^ (6 * ratio c i) * y i * y i))

/-- `bent_cigar_func`, cec2013.cpp 351-373 -/
noncomputable def bentCigar (c : Ctx) (o m : Nat) (flag : Bool) (x : List ℝ) : Outcome ℝ := do
  let y ← shift c o x
  let z ← turn c flag m y
  let y := asy c 0.5 z y
  let z ← turn c flag (m + c.nx * c.nx) y
  .ok (z 0 * z 0 + acc (c.nx - 1) (fun i => (10 : ℝ) ^ (6 : ℝ) * z (i + 1) * z (i + 1)))

/-- `discus_func`, cec2013.cpp 375-391 -/
noncomputable def discus (c : Ctx) (o m : Nat) (flag : Bool) (x : List ℝ) : Outcome ℝ := do
  let y ← shift c o x
  let z ← turn c flag m y
  let y := osz c z
  .ok ((10 : ℝ) ^ (6 : ℝ) * y 0 * y 0 + acc (c.nx - 1) (fun i => y (i + 1) * y (i + 1)))

/-- `dif_powers_func`, cec2013.cpp 393-408 -/
noncomputable def difPowers (c : Ctx) (o m : Nat) (flag : Bool) (x : List ℝ) : Outcome ℝ := do
  let y ← shift c o x
  let z ← turn c flag m y
  .ok (acc c.nx (fun i => |z i| ^ (2 + 4 * ratio c i)) ^ (0.5 : ℝ))

/-- `rosenbrock_func`, cec2013.cpp 410-436 -/
noncomputable def rosenbrock (c : Ctx) (o m : Nat) (flag : Bool) (x : List ℝ) : Outcome ℝ := do
  let y ← shift c o x
  let z ← turn c flag m (fun i => y i * 2.048 / 100)
  let z := fun i => z i + 1
  .ok (acc (c.nx - 1) (fun i => 100 * (z i * z i - z (i + 1)) * (z i * z i - z (i + 1)) + (z i - 1) * (z i - 1)))

/-- `schaffer_F7_func`, cec2013.cpp 438-466 -/
noncomputable def schafferF7 (c : Ctx) (o m : Nat) (flag : Bool) (x : List ℝ) : Outcome ℝ := do
  let y ← shift c o x
  let z ← turn c flag m y
  let y := asy c 0.5 z y
  let z := fun i => y i * (10 : ℝ) ^ (ratio c i / 2)
  let y ← turn c flag (m + c.nx * c.nx) z
  let z := fun i => (y i * y i + y (i + 1) * y (i + 1)) ^ (0.5 : ℝ)
  let f := acc (c.nx - 1) (fun i => z i ^ (0.5 : ℝ) + z i ^ (0.5 : ℝ) * Real.sin (50 * z i ^ (0.2 : ℝ)) * Real.sin (50 * z i ^ (0.2 : ℝ)))
  .ok (f * f / ((c.nx : ℝ) - 1) / ((c.nx : ℝ) - 1))

/-- `ackley_func`, cec2013.cpp 468-499 -/
noncomputable def ackley (c : Ctx) (o m : Nat) (flag : Bool) (x : List ℝ) : Outcome ℝ := do
  let y ← shift c o x
  let z ← turn c flag m y
  let y := asy c 0.5 z y
  let z := fun i => y i * (10 : ℝ) ^ (ratio c i / 2)
  let y ← turn c flag (m + c.nx * c.nx) z
  let sum1 := acc c.nx (fun i => y i * y i)
  let sum2 := acc c.nx (fun i => Real.cos (2 * Real.pi * y i))
  .ok (Real.exp 1 - 20 * Real.exp (-0.2 * Real.sqrt (sum1 / c.nx)) - Real.exp (sum2 / c.nx) + 20)

/-- the inner loop of `weierstrass_func`, cec2013.cpp 532-537 -/
noncomputable def wei (t : ℝ) : ℝ := acc 21 (fun j => (0.5 : ℝ) ^ j * Real.cos (2 * Real.pi * (3 : ℝ) ^ j * t))

/-- `weierstrass_func`, cec2013.cpp 501-541 -/
noncomputable def weierstrass (c : Ctx) (o m : Nat) (flag : Bool) (x : List ℝ) : Outcome ℝ := do
  let y ← shift c o x
  let y := fun i => y i * 0.5 / 100
  let z ← turn c flag m y
  let y := asy c 0.5 z y
  let z := fun i => y i * (10 : ℝ) ^ (ratio c i / 2)
  let y ← turn c flag (m + c.nx * c.nx) z
  .ok (acc c.nx (fun i => wei (y i + 0.5)) - c.nx * wei 0.5)

/-- `griewank_func`, cec2013.cpp 543-570 -/
noncomputable def griewank (c : Ctx) (o m : Nat) (flag : Bool) (x : List ℝ) : Outcome ℝ := do
  let y ← shift c o x
  let z ← turn c flag m (fun i => y i * 600 / 100)
  let z := fun i => z i * (100 : ℝ) ^ (ratio c i / 2)
  let s := acc c.nx (fun i => z i * z i)
  let p := (List.range c.nx).foldl (fun (p : ℝ) (i : Nat) => p * Real.cos (z i / Real.sqrt (1 + i))) 1
  .ok (1 + s / 4000 - p)

/-- the second half of `rastrigin_func` and `step_rastrigin_func`, from `oszfunc` on, cec2013.cpp 589-611 and 635-657 -/
noncomputable def rastriginTail (c : Ctx) (m : Nat) (flag : Bool) (z : Vec) : Outcome ℝ := do
  let y := osz c z
  let z := asy c 0.2 y z
  let y ← turn c flag (m + c.nx * c.nx) z
  let y := fun i => y i * (10 : ℝ) ^ (ratio c i / 2)
  let z ← turn c flag m y
  .ok (acc c.nx (fun i => z i * z i - 10 * Real.cos (2 * Real.pi * z i) + 10))

/-- `rastrigin_func`, cec2013.cpp 572-612 -/
noncomputable def rastrigin (c : Ctx) (o m : Nat) (flag : Bool) (x : List ℝ) : Outcome ℝ := do
  let y ← shift c o x
  let z ← turn c flag m (fun i => y i * 5.12 / 100)
  rastriginTail c m flag z

/-- `step_rastrigin_func`, cec2013.cpp 614-658 -/
noncomputable def stepRastrigin (c : Ctx) (o m : Nat) (flag : Bool) (x : List ℝ) : Outcome ℝ := do
  let y ← shift c o x
  let z ← turn c flag m (fun i => y i * 5.12 / 100)
  rastriginTail c m flag (fun i => if 0.5 < |z i| then (⌊2 * z i + 0.5⌋ : ℝ) / 2 else z i)

/-- the remainder of the division by 500 of a number that is not negative, `std::fmod` -/
noncomputable def fmod500 (t : ℝ) : ℝ := t - 500 * (⌊t / 500⌋ : ℝ)

/-- what one entry contributes in `schwefel_func`, cec2013.cpp 684-694 -/
noncomputable def schwefelTerm (c : Ctx) (z : ℝ) : ℝ :=
  if 500 < z then
    -((500 - fmod500 z) * Real.sin ((500 - fmod500 z) ^ (0.5 : ℝ))) + (z - 500) / 100 * ((z - 500) / 100) / c.nx
  else if z < -500 then
    -((-500 + fmod500 |z|) * Real.sin ((500 - fmod500 |z|) ^ (0.5 : ℝ))) + (z + 500) / 100 * ((z + 500) / 100) / c.nx
  else -(z * Real.sin (|z| ^ (0.5 : ℝ)))

/-- `schwefel_func`, cec2013.cpp 660-697 -/
noncomputable def schwefel (c : Ctx) (o m : Nat) (flag : Bool) (x : List ℝ) : Outcome ℝ := do
  let y ← shift c o x
  let z ← turn c flag m (fun i => y i * (1000 / 100))
  let y := fun i => z i * (10 : ℝ) ^ (ratio c i / 2)
  let z := fun i => y i + 420.9687462275036
  .ok (418.9828872724338 * c.nx + acc c.nx (fun i => schwefelTerm c (z i)))

/-- the inner loop of `katsuura_func`, cec2013.cpp 727-732 -/
noncomputable def kat (t : ℝ) : ℝ := acc 32 (fun j => |2 ^ (j + 1) * t - (⌊2 ^ (j + 1) * t + 0.5⌋ : ℝ)| / 2 ^ (j + 1))

/-- `katsuura_func`, cec2013.cpp 699-737 -/
noncomputable def katsuura (c : Ctx) (o m : Nat) (flag : Bool) (x : List ℝ) : Outcome ℝ := do
  let y ← shift c o x
  let z ← turn c flag m (fun i => y i * (5 / 100))
  let z := fun i => z i * (100 : ℝ) ^ (ratio c i / 2)
  let y ← turn c flag (m + c.nx * c.nx) z
  let tmp3 := (c.nx : ℝ) ^ (1.2 : ℝ)
  let f := (List.range c.nx).foldl (fun (f : ℝ) (i : Nat) => f * (1 + ((i : ℝ) + 1) * kat (y i)) ^ (10 / tmp3)) 1
  let tmp1 := 10 / (c.nx : ℝ) / c.nx
  .ok (f * tmp1 - tmp1)

/-- `bi_rastrigin_func`, cec2013.cpp 739-799 -/
noncomputable def biRastrigin (c : Ctx) (o m : Nat) (flag : Bool) (x : List ℝ) : Outcome ℝ := do
  let mu0 := 2.5
  let s := 1 - 1 / (2 * ((c.nx : ℝ) + 20) ^ (0.5 : ℝ) - 8.2)
  let mu1 := Neg.neg (((mu0 * mu0 - 1) / s) ^ (0.5 : ℝ))
  let y ← shift c o x
  let t := fun i => if entry c.os (o + i) < 0 then 2 * (y i * (10 / 100)) * (-1) else 2 * (y i * (10 / 100))
  let y ← turn c flag m t
  let y := fun i => y i * (100 : ℝ) ^ (ratio c i / 2)
  let z ← turn c flag (m + c.nx * c.nx) y
  let tmp1 := acc c.nx (fun i => (t i + mu0 - mu0) * (t i + mu0 - mu0))
  let tmp2 := acc c.nx (fun i => (t i + mu0 - mu1) * (t i + mu0 - mu1)) * s + 1 * c.nx
  let tmp := acc c.nx (fun i => Real.cos (2 * Real.pi * z i))
  .ok ((if tmp1 < tmp2 then tmp1 else tmp2) + 10 * ((c.nx : ℝ) - tmp))

/-- one summand of `grie_rosen_func`, cec2013.cpp 825-828 and 830-834 -/
noncomputable def grTerm (a b : ℝ) : ℝ :=
  let tmp1 := a * a - b
  let temp := 100 * tmp1 * tmp1 + (a - 1) * (a - 1)
  temp * temp / 4000 - Real.cos temp + 1

/-- `grie_rosen_func`, cec2013.cpp 801-835: the rotated vector is overwritten, cec2013.cpp 812-821 -/
noncomputable def grieRosen (c : Ctx) (o m : Nat) (flag : Bool) (x : List ℝ) : Outcome ℝ := do
  let y ← shift c o x
  let y := fun i => y i * 5 / 100
  let _ ← turn c flag m y
  let z := fun i => y i + 1
  .ok (acc (c.nx - 1) (fun i => grTerm (z i) (z (i + 1))) + grTerm (z (c.nx - 1)) (z 0))

/-- one summand of `escaffer6_func`, cec2013.cpp 858-861 -/
noncomputable def esTerm (a b : ℝ) : ℝ :=
  let t := Real.sin (Real.sqrt (a * a + b * b))
  let u := 1 + 0.001 * (a * a + b * b)
  0.5 + (t * t - 0.5) / (u * u)

/-- `escaffer6_func`, cec2013.cpp 837-867 -/
noncomputable def escaffer6 (c : Ctx) (o m : Nat) (flag : Bool) (x : List ℝ) : Outcome ℝ := do
  let y ← shift c o x
  let z ← turn c flag m y
  let y := asy c 0.5 z y
  let z ← turn c flag (m + c.nx * c.nx) y
  .ok (acc (c.nx - 1) (fun i => esTerm (z i) (z (i + 1))) + esTerm (z (c.nx - 1)) (z 0))

/-- the weight of one component, cec2013.cpp 1097-1104 -/
noncomputable def weight (c : Ctx) (x : List ℝ) (delta : ℝ) (i : Nat) : ℝ :=
  let w := acc c.nx (fun j => (entry x j - entry c.os (i * c.nx + j)) ^ 2)
  if w ≠ 0 then (1 / w) ^ (0.5 : ℝ) * Real.exp (-w / 2 / c.nx / delta ^ 2) else 1e99

/-- `cf_cal`, cec2013.cpp 1088-1121; `fit` and `delta` have `cf_num` entries -/
noncomputable def cfCal (c : Ctx) (x : List ℝ) (delta bias fit : List ℝ) : Outcome ℝ :=
  if c.nx ≤ x.length ∧ fit.length * c.nx ≤ c.os.length then
    let fit' := fun i => entry fit i + entry bias i
    let w := fun i => weight c x (entry delta i) i
    let wMax := (List.range fit.length).foldl (fun a i => if a < w i then w i else a) 0
    let w' := if wMax = 0 then fun _ => 1 else w
    let wSum := if wMax = 0 then (fit.length : ℝ) else acc fit.length w
    .ok (acc fit.length (fun i => w' i / wSum * fit' i))
  else .ub

/-- a component of a composition function: a function, the factor and the divisor applied to its value -/
structure Part where
  f : Ctx → Nat → Nat → Bool → List ℝ → Outcome ℝ
  flag : Bool
  num : ℝ
  den : ℝ

/-- the values of the components, the `i`-th with the `i`-th shift and the matrices from the `i`-th on, e.g. cec2013.cpp 877-891 -/
noncomputable def fits (c : Ctx) (x : List ℝ) : Nat → List Part → Outcome (List ℝ)
  | _, [] => .ok []
  | i, p :: ps => do
    let v ← p.f c (i * c.nx) (i * c.nx * c.nx) p.flag x
    let vs ← fits c x (i + 1) ps
    .ok (p.num * v / p.den :: vs)

/-- a composition function: the components, the widths and the biases -/
structure Comp where
  parts : List Part
  delta : List ℝ
  bias : List ℝ

/-- `cf01` to `cf08` with the flag of the call, cec2013.cpp 869-1032; `cf02` and `cf03` do not scale -/
noncomputable def comps : List Comp :=
  [⟨[⟨rosenbrock, true, 10000, 1e4⟩, ⟨difPowers, true, 10000, 1e10⟩, ⟨bentCigar, true, 10000, 1e30⟩, ⟨discus, true, 10000, 1e10⟩,
      ⟨sphere, false, 10000, 1e5⟩], [10, 20, 30, 40, 50], [0, 100, 200, 300, 400]⟩,
    ⟨[⟨schwefel, false, 1, 1⟩, ⟨schwefel, false, 1, 1⟩, ⟨schwefel, false, 1, 1⟩], [20, 20, 20], [0, 100, 200]⟩,
    ⟨[⟨schwefel, true, 1, 1⟩, ⟨schwefel, true, 1, 1⟩, ⟨schwefel, true, 1, 1⟩], [20, 20, 20], [0, 100, 200]⟩,
    ⟨[⟨schwefel, true, 1000, 4e3⟩, ⟨rastrigin, true, 1000, 1e3⟩, ⟨weierstrass, true, 1000, 400⟩], [20, 20, 20], [0, 100, 200]⟩,
    ⟨[⟨schwefel, true, 1000, 4e3⟩, ⟨rastrigin, true, 1000, 1e3⟩, ⟨weierstrass, true, 1000, 400⟩], [10, 30, 50], [0, 100, 200]⟩,
    ⟨[⟨schwefel, true, 1000, 4e3⟩, ⟨rastrigin, true, 1000, 1e3⟩, ⟨ellips, true, 1000, 1e10⟩, ⟨weierstrass, true, 1000, 400⟩,
      ⟨griewank, true, 1000, 100⟩], [10, 10, 10, 10, 10], [0, 100, 200, 300, 400]⟩,
    ⟨[⟨griewank, true, 10000, 100⟩, ⟨rastrigin, true, 10000, 1e3⟩, ⟨schwefel, true, 10000, 4e3⟩, ⟨weierstrass, true, 10000, 400⟩,
      ⟨sphere, false, 10000, 1e5⟩], [10, 10, 10, 20, 20], [0, 100, 200, 300, 400]⟩,
    ⟨[⟨grieRosen, true, 10000, 4e3⟩, ⟨schafferF7, true, 10000, 4e6⟩, ⟨schwefel, true, 10000, 4e3⟩, ⟨escaffer6, true, 10000, 2e7⟩,
      ⟨sphere, false, 10000, 1e5⟩], [10, 20, 30, 40, 50], [0, 100, 200, 300, 400]⟩]

/-- a composition function, e.g. `cf01`, cec2013.cpp 869-893 -/
noncomputable def comp (c : Ctx) (q : Comp) (x : List ℝ) : Outcome ℝ := do
  let fit ← fits c x 0 q.parts
  cfCal c x q.delta q.bias fit

/-- the calls for the problems 1 to 20 with `r_flag`, cec2013.cpp 83-162 -/
noncomputable def basics : List ((Ctx → Nat → Nat → Bool → List ℝ → Outcome ℝ) × Bool) :=
  [(sphere, false), (ellips, true), (bentCigar, true), (discus, true), (difPowers, false), (rosenbrock, true), (schafferF7, true), (ackley, true),
    (weierstrass, true), (griewank, true), (rastrigin, false), (rastrigin, true), (stepRastrigin, true), (schwefel, false), (schwefel, true),
    (katsuura, true), (biRastrigin, false), (biRastrigin, true), (grieRosen, true), (escaffer6, true)]

/-- what is added, cec2013.cpp 83-194 -/
noncomputable def biases : List ℝ :=
  [-1400, -1300, -1200, -1100, -1000, -900, -800, -700, -600, -500, -400, -300, -200, -100, 100, 200, 300, 400, 500, 600, 700, 800, 900, 1000,
    1100, 1200, 1300, 1400]

/-- `cec2013::fitness`, cec2013.cpp 78-196 -/
noncomputable def fitness (id : Nat) (c : Ctx) (x : List ℝ) : Outcome (List ℝ) :=
  match id with
  | 0 => .ok [0]
  | k + 1 =>
    match basics[k]? with
    | some p => do
      let v ← p.1 c 0 0 p.2 x
      .ok [v + entry biases k]
    | none =>
      match comps[k - 20]? with
      | some q => do
        let v ← comp c q x
        .ok [v + entry biases k]
      | none => .ok [0]

/-- the dimensions of the constructor, cec2013.cpp 53-54 -/
def dims : List Nat := [2, 5, 10, 20, 30, 40, 50, 60, 70, 80, 90, 100]

/-- the constructor, cec2013.cpp 50-68; `md` is the table of the matrices, `sd` the table of the shifts -/
def construct (md : Nat → List ℝ) (sd : List ℝ) (id dim : Nat) : Outcome Ctx :=
  if dim ∉ dims then .throws .invalidArgument
  else if id < 1 ∨ 28 < id then .throws .invalidArgument
  else .ok ⟨dim, sd, md dim⟩

/-- `cec2013::get_bounds`, cec2013.cpp 204-210 -/
def bounds (c : Ctx) : List ℝ × List ℝ := (List.replicate c.nx (-100), List.replicate c.nx 100)

end Verif.Cec13
