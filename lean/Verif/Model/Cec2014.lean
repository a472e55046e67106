import Verif.Model.Cec2013

/-!
# Model of `cec2014`, src/problems/cec2014.cpp

Simplified: real numbers instead of doubles. The tables of shifts, matrices and shuffles (cec2014_data.hpp declares them, the definitions are not
part of the source read) are parameters; reading past their end is undefined behaviour. The buffers `m_y` and `m_z` are functions of the index;
the functions modelled write all the entries below `nx` of a buffer before they read one. Not modelled, since no problem calls them:
`sphere_func`, `dif_powers_func`, `schaffer_F7_func`, `step_rastrigin_func`, `bi_rastrigin_func`, `asyfunc`, `oszfunc`.
-/

set_option autoImplicit false

namespace Verif.Cec14

open Verif
open Verif.Cec13 (Vec entry acc)

/-- the members of the class: the number of variables (`m_z.size()`), the shifts, the matrices and the shuffles, cec2014.hpp 226-236 -/
structure Ctx where
  nx : Nat
  os : List ℝ
  mr : List ℝ
  sh : List Int

/-- `shiftfunc`, cec2014.cpp 1215-1222, with the shift at offset `o` -/
noncomputable def shift (c : Ctx) (n o : Nat) (x : List ℝ) : Outcome Vec :=
  if o + n ≤ c.os.length then .ok (fun i => entry x i - entry c.os (o + i)) else .ub

/-- `rotatefunc`, cec2014.cpp 1224-1235, with the matrix at offset `m` -/
noncomputable def rotate (c : Ctx) (n m : Nat) (v : Vec) : Outcome Vec :=
  if m + n * n ≤ c.mr.length then .ok (fun i => acc n (fun j => v j * entry c.mr (m + (i * n + j)))) else .ub

/-- `sr_func`, cec2014.cpp 1238-1274: shift if `s`, scale, rotate if `r`. `x` is the array from the pointer on. -/
noncomputable def sr (c : Ctx) (n o m : Nat) (rate : ℝ) (s r : Bool) (x : List ℝ) : Outcome Vec :=
  if n ≤ x.length then do
    let y ← (if s then shift c n o x else .ok (entry x))
    let y := fun i => y i * rate
    if r then rotate c n m y else .ok y
  else .ub

/-- the type of the basic functions: the object, the number of entries, the offsets of the shift and of the matrix, the two flags, the array -/
abbrev Fn := Ctx → Nat → Nat → Nat → Bool → Bool → List ℝ → Outcome ℝ

/-- `ellips_func`, cec2014.cpp 375-385; called with at least two entries, so that the exponent is not 0/0 -/
noncomputable def ellips : Fn := fun c n o m s r x => do
  let z ← sr c n o m 1 s r x
  .ok (acc n (fun i => (10 : ℝ) ^ (6 * (i : ℝ) / ((n : ℝ) - 1)) * z i * z i))

/-- `bent_cigar_func`, cec2014.cpp 388-399 -/
noncomputable def bentCigar : Fn := fun c n o m s r x => do
  let z ← sr c n o m 1 s r x
  .ok (z 0 * z 0 + acc (n - 1) (fun i => (10 : ℝ) ^ (6 : ℝ) * z (i + 1) * z (i + 1)))

/-- `discus_func`, cec2014.cpp 402-412 -/
noncomputable def discus : Fn := fun c n o m s r x => do
  let z ← sr c n o m 1 s r x
  .ok ((10 : ℝ) ^ (6 : ℝ) * z 0 * z 0 + acc (n - 1) (fun i => z (i + 1) * z (i + 1)))

/-- `rosenbrock_func`, cec2014.cpp 430-445 -/
noncomputable def rosenbrock : Fn := fun c n o m s r x => do
  let z ← sr c n o m (2.048 / 100) s r x
  let z := fun i => z i + 1
  .ok (acc (n - 1) (fun i => 100 * (z i * z i - z (i + 1)) * (z i * z i - z (i + 1)) + (z i - 1) * (z i - 1)))

/-- `ackley_func`, cec2014.cpp 465-483 -/
noncomputable def ackley : Fn := fun c n o m s r x => do
  let z ← sr c n o m 1 s r x
  let sum1 := acc n (fun i => z i * z i)
  let sum2 := acc n (fun i => Real.cos (2 * Real.pi * z i))
  .ok (Real.exp 1 - 20 * Real.exp (-0.2 * Real.sqrt (sum1 / n)) - Real.exp (sum2 / n) + 20)

/-- the inner loop of `weierstrass_func`, cec2014.cpp 503-506 -/
noncomputable def wei (t : ℝ) : ℝ := acc 21 (fun j => (0.5 : ℝ) ^ j * Real.cos (2 * Real.pi * (3 : ℝ) ^ j * t))

/-- `weierstrass_func`, cec2014.cpp 486-510 -/
noncomputable def weierstrass : Fn := fun c n o m s r x => do
  let z ← sr c n o m (0.5 / 100) s r x
  .ok (acc n (fun i => wei (z i + 0.5)) - n * wei 0.5)

/-- `griewank_func`, cec2014.cpp 513-529 -/
noncomputable def griewank : Fn := fun c n o m s r x => do
  let z ← sr c n o m (600 / 100) s r x
  let p := (List.range n).foldl (fun (p : ℝ) (i : Nat) => p * Real.cos (z i / Real.sqrt (1 + i))) 1
  .ok (1 + acc n (fun i => z i * z i) / 4000 - p)

/-- `rastrigin_func`, cec2014.cpp 532-544 -/
noncomputable def rastrigin : Fn := fun c n o m s r x => do
  let z ← sr c n o m (5.12 / 100) s r x
  .ok (acc n (fun i => z i * z i - 10 * Real.cos (2 * Real.pi * z i) + 10))

/-- the remainder of the division by 500 of a number that is not negative, `std::fmod` -/
noncomputable def fmod500 (t : ℝ) : ℝ := t - 500 * (⌊t / 500⌋ : ℝ)

/-- what one entry contributes in `schwefel_func`, cec2014.cpp 577-587 -/
noncomputable def schwefelTerm (n : Nat) (z : ℝ) : ℝ :=
  if 500 < z then
    -((500 - fmod500 z) * Real.sin ((500 - fmod500 z) ^ (0.5 : ℝ))) + (z - 500) / 100 * ((z - 500) / 100) / n
  else if z < -500 then
    -((-500 + fmod500 |z|) * Real.sin ((500 - fmod500 |z|) ^ (0.5 : ℝ))) + (z + 500) / 100 * ((z + 500) / 100) / n
  else -(z * Real.sin (|z| ^ (0.5 : ℝ)))

/-- `schwefel_func`, cec2014.cpp 565-590 -/
noncomputable def schwefel : Fn := fun c n o m s r x => do
  let z ← sr c n o m (1000 / 100) s r x
  .ok (acc n (fun i => schwefelTerm n (z i + 420.9687462275036)) + 418.9828872724338 * n)

/-- the inner loop of `katsuura_func`, cec2014.cpp 605-610 -/
noncomputable def kat (t : ℝ) : ℝ := acc 32 (fun j => |2 ^ (j + 1) * t - (⌊2 ^ (j + 1) * t + 0.5⌋ : ℝ)| / 2 ^ (j + 1))

/-- `katsuura_func`, cec2014.cpp 593-615 -/
noncomputable def katsuura : Fn := fun c n o m s r x => do
  let z ← sr c n o m (5 / 100) s r x
  let tmp3 := (n : ℝ) ^ (1.2 : ℝ)
  let f := (List.range n).foldl (fun (f : ℝ) (i : Nat) => f * (1 + ((i : ℝ) + 1) * kat (z i)) ^ (10 / tmp3)) 1
  let tmp1 := 10 / (n : ℝ) / n
  .ok (f * tmp1 - tmp1)

/-- one summand of `grie_rosen_func`, cec2014.cpp 705-708 and 710-713 -/
noncomputable def grTerm (a b : ℝ) : ℝ :=
  let tmp1 := a * a - b
  let temp := 100 * tmp1 * tmp1 + (a - 1) * (a - 1)
  temp * temp / 4000 - Real.cos temp + 1

/-- `grie_rosen_func`, cec2014.cpp 692-714 -/
noncomputable def grieRosen : Fn := fun c n o m s r x => do
  let z ← sr c n o m (5 / 100) s r x
  let z := fun i => z i + 1
  .ok (acc (n - 1) (fun i => grTerm (z i) (z (i + 1))) + grTerm (z (n - 1)) (z 0))

/-- one summand of `escaffer6_func`, cec2014.cpp 728-731 -/
noncomputable def esTerm (a b : ℝ) : ℝ :=
  let t := Real.sin (Real.sqrt (a * a + b * b))
  let u := 1 + 0.001 * (a * a + b * b)
  0.5 + (t * t - 0.5) / (u * u)

/-- `escaffer6_func`, cec2014.cpp 717-737 -/
noncomputable def escaffer6 : Fn := fun c n o m s r x => do
  let z ← sr c n o m 1 s r x
  .ok (acc (n - 1) (fun i => esTerm (z i) (z (i + 1))) + esTerm (z (n - 1)) (z 0))

/-- `happycat_func`, cec2014.cpp 741-760 -/
noncomputable def happycat : Fn := fun c n o m s r x => do
  let alpha := (1 / 8 : ℝ)
  let z ← sr c n o m (5 / 100) s r x
  let z := fun i => z i - 1
  let r2 := acc n (fun i => z i * z i)
  let sumZ := acc n z
  .ok (|r2 - n| ^ (2 * alpha) + (0.5 * r2 + sumZ) / n + 0.5)

/-- `hgbat_func`, cec2014.cpp 764-783 -/
noncomputable def hgbat : Fn := fun c n o m s r x => do
  let alpha := (1 / 4 : ℝ)
  let z ← sr c n o m (5 / 100) s r x
  let z := fun i => z i - 1
  let r2 := acc n (fun i => z i * z i)
  let sumZ := acc n z
  .ok (|r2 ^ (2 : ℝ) - sumZ ^ (2 : ℝ)| ^ (2 * alpha) + (0.5 * r2 + sumZ) / n + 0.5)

/-- a hybrid function: the proportions `Gp`, in tenths, and the functions -/
structure Hyb where
  gp : List Nat
  fns : List Fn

/-- the sizes `G_nx`, e.g. cec2014.cpp 794-799; `Gp[i] * nx` is exact for the dimensions of the constructor but 2, where hybrids are refused -/
def sizes (nx : Nat) : Nat → List Nat → List Nat
  | _, [] => []
  | tmp, [_] => [nx - tmp]
  | tmp, p :: q :: ps => (p * nx + 9) / 10 :: sizes nx (tmp + (p * nx + 9) / 10) (q :: ps)

/-- the calls on the pieces of `m_y`, the first at offset `g`, e.g. cec2014.cpp 800-803 and 810-815 -/
noncomputable def pieces (c : Ctx) (o m : Nat) (y : List ℝ) : Nat → List (Nat × Fn) → Outcome (List ℝ)
  | _, [] => .ok []
  | g, p :: ps => do
    let v ← p.2 c p.1 o m false false (y.drop g)
    let vs ← pieces c o m y (g + p.1) ps
    .ok (v :: vs)

/-- the shuffle, e.g. cec2014.cpp 807-809, with the table from offset `k` on -/
noncomputable def shuffle (c : Ctx) (k : Nat) (z : Vec) : Outcome (List ℝ) :=
  if k + c.nx ≤ c.sh.length ∧ ∀ j < c.nx, 1 ≤ c.sh.getD (k + j) 0 ∧ c.sh.getD (k + j) 0 ≤ c.nx then
    .ok ((List.range c.nx).map (fun j => z (c.sh.getD (k + j) 0 - 1).toNat))
  else .ub

/-- the body of `hf01` to `hf06`, cec2014.cpp 785-1034 -/
noncomputable def Hyb.run (h : Hyb) (c : Ctx) (o m k : Nat) (s r : Bool) (x : List ℝ) : Outcome ℝ := do
  let z ← sr c c.nx o m 1 s r x
  let y ← shuffle c k z
  let fit ← pieces c o m y 0 ((sizes c.nx 0 h.gp).zip h.fns)
  .ok (fit.foldl (fun a b => a + b) 0)

/-- `hf01`, cec2014.cpp 786-820 -/
noncomputable def hf01 : Hyb := ⟨[3, 3, 4], [schwefel, rastrigin, ellips]⟩

/-- `hf02`, cec2014.cpp 823-859 -/
noncomputable def hf02 : Hyb := ⟨[3, 3, 4], [bentCigar, hgbat, rastrigin]⟩

/-- `hf03`, cec2014.cpp 862-901 -/
noncomputable def hf03 : Hyb := ⟨[2, 2, 3, 3], [griewank, weierstrass, rosenbrock, escaffer6]⟩

/-- `hf04`, cec2014.cpp 904-943 -/
noncomputable def hf04 : Hyb := ⟨[2, 2, 3, 3], [hgbat, discus, grieRosen, rastrigin]⟩

/-- `hf05`, cec2014.cpp 946-989 -/
noncomputable def hf05 : Hyb := ⟨[1, 2, 2, 2, 3], [escaffer6, hgbat, rosenbrock, schwefel, ellips]⟩

/-- `hf06`, cec2014.cpp 992-1034 -/
noncomputable def hf06 : Hyb := ⟨[1, 2, 2, 2, 3], [katsuura, happycat, grieRosen, schwefel, ackley]⟩

/-- what a problem or a component of a composition calls -/
inductive Leaf where
  | basic (f : Fn)
  | hybrid (h : Hyb)

/-- the call with the `i`-th shift, matrix and shuffle, e.g. cec2014.cpp 1046 and 1189 -/
noncomputable def Leaf.run (l : Leaf) (c : Ctx) (i : Nat) (r : Bool) (x : List ℝ) : Outcome ℝ :=
  match l with
  | .basic f => f c c.nx (i * c.nx) (i * c.nx * c.nx) true r x
  | .hybrid h => h.run c (i * c.nx) (i * c.nx * c.nx) (i * c.nx) true r x

/-- the largest double, the weight at a shift, cec2014.cpp 1336 -/
noncomputable def dblMax : ℝ := (2 - 1 / 2 ^ 52) * 2 ^ 1023

/-- the weight of one component, cec2014.cpp 1329-1336 -/
noncomputable def weight (c : Ctx) (x : List ℝ) (delta : ℝ) (i : Nat) : ℝ :=
  let w := acc c.nx (fun j => (entry x j - entry c.os (i * c.nx + j)) ^ 2)
  if w ≠ 0 then (1 / w) ^ (0.5 : ℝ) * Real.exp (-w / 2 / c.nx / delta ^ 2) else dblMax

/-- `cf_cal`, cec2014.cpp 1319-1353; `fit`, `delta` and `bias` have `cf_num` entries -/
noncomputable def cfCal (c : Ctx) (x : List ℝ) (delta bias fit : List ℝ) : Outcome ℝ :=
  if c.nx ≤ x.length ∧ fit.length * c.nx ≤ c.os.length then
    let fit' := fun i => entry fit i + entry bias i
    let w := fun i => weight c x (entry delta i) i
    let wMax := (List.range fit.length).foldl (fun a i => if a < w i then w i else a) 0
    let w' := if wMax = 0 then fun _ => 1 else w
    let wSum := if wMax = 0 then (fit.length : ℝ) else acc fit.length w
    .ok (acc fit.length (fun i => w' i / wSum * fit' i))
  else .ub

/-- a component of a composition function: what is called, `r_flag`, the factor and the divisor applied to the value -/
structure Part where
  leaf : Leaf
  flag : Bool
  num : ℝ
  den : ℝ

/-- the values of the components, e.g. cec2014.cpp 1045-1059 -/
noncomputable def fits (c : Ctx) (x : List ℝ) : Nat → List Part → Outcome (List ℝ)
  | _, [] => .ok []
  | i, p :: ps => do
    let v ← p.leaf.run c i p.flag x
    let vs ← fits c x (i + 1) ps
    .ok (p.num * v / p.den :: vs)

/-- a composition function: the components, the widths and the biases -/
structure Comp where
  parts : List Part
  delta : List ℝ
  bias : List ℝ

/-- `cf01` to `cf08` with the flag of the call, cec2014.cpp 1036-1213; `cf02`, `cf07` and `cf08` do not scale -/
noncomputable def comps : List Comp :=
  [⟨[⟨.basic rosenbrock, true, 10000, 1e4⟩, ⟨.basic ellips, true, 10000, 1e10⟩, ⟨.basic bentCigar, true, 10000, 1e30⟩,
      ⟨.basic discus, true, 10000, 1e10⟩, ⟨.basic ellips, false, 10000, 1e10⟩], [10, 20, 30, 40, 50], [0, 100, 200, 300, 400]⟩,
    ⟨[⟨.basic schwefel, false, 1, 1⟩, ⟨.basic rastrigin, true, 1, 1⟩, ⟨.basic hgbat, true, 1, 1⟩], [20, 20, 20], [0, 100, 200]⟩,
    ⟨[⟨.basic schwefel, true, 1000, 4e3⟩, ⟨.basic rastrigin, true, 1000, 1e3⟩, ⟨.basic ellips, true, 1000, 1e10⟩], [10, 30, 50], [0, 100, 200]⟩,
    ⟨[⟨.basic schwefel, true, 1000, 4e3⟩, ⟨.basic happycat, true, 1000, 1e3⟩, ⟨.basic ellips, true, 1000, 1e10⟩,
      ⟨.basic weierstrass, true, 1000, 400⟩, ⟨.basic griewank, true, 1000, 100⟩], [10, 10, 10, 10, 10], [0, 100, 200, 300, 400]⟩,
    ⟨[⟨.basic hgbat, true, 10000, 1000⟩, ⟨.basic rastrigin, true, 10000, 1e3⟩, ⟨.basic schwefel, true, 10000, 4e3⟩,
      ⟨.basic weierstrass, true, 10000, 400⟩, ⟨.basic ellips, true, 10000, 1e10⟩], [10, 10, 10, 20, 20], [0, 100, 200, 300, 400]⟩,
    ⟨[⟨.basic grieRosen, true, 10000, 4e3⟩, ⟨.basic happycat, true, 10000, 1e3⟩, ⟨.basic schwefel, true, 10000, 4e3⟩,
      ⟨.basic escaffer6, true, 10000, 2e7⟩, ⟨.basic ellips, true, 10000, 1e10⟩], [10, 20, 30, 40, 50], [0, 100, 200, 300, 400]⟩,
    ⟨[⟨.hybrid hf01, true, 1, 1⟩, ⟨.hybrid hf02, true, 1, 1⟩, ⟨.hybrid hf03, true, 1, 1⟩], [10, 30, 50], [0, 100, 200]⟩,
    ⟨[⟨.hybrid hf04, true, 1, 1⟩, ⟨.hybrid hf05, true, 1, 1⟩, ⟨.hybrid hf06, true, 1, 1⟩], [10, 30, 50], [0, 100, 200]⟩]

/-- a composition function, e.g. `cf01`, cec2014.cpp 1037-1061 -/
noncomputable def comp (c : Ctx) (q : Comp) (x : List ℝ) : Outcome ℝ := do
  let fit ← fits c x 0 q.parts
  cfCal c x q.delta q.bias fit

/-- the calls for the problems 1 to 22 with `r_flag`, cec2014.cpp 124-211 -/
noncomputable def singles : List (Leaf × Bool) :=
  [(.basic ellips, true), (.basic bentCigar, true), (.basic discus, true), (.basic rosenbrock, true), (.basic ackley, true),
    (.basic weierstrass, true), (.basic griewank, true), (.basic rastrigin, false), (.basic rastrigin, true), (.basic schwefel, false),
    (.basic schwefel, true), (.basic katsuura, true), (.basic happycat, true), (.basic hgbat, true), (.basic grieRosen, true),
    (.basic escaffer6, true), (.hybrid hf01, true), (.hybrid hf02, true), (.hybrid hf03, true), (.hybrid hf04, true), (.hybrid hf05, true),
    (.hybrid hf06, true)]

/-- what is added, cec2014.cpp 124-243 -/
noncomputable def biases : List ℝ :=
  [100, 200, 300, 400, 500, 600, 700, 800, 900, 1000, 1100, 1200, 1300, 1400, 1500, 1600, 1700, 1800, 1900, 2000, 2100, 2200, 2300, 2400, 2500,
    2600, 2700, 2800, 2900, 3000]

/-- `cec2014::fitness`, cec2014.cpp 119-247 -/
noncomputable def fitness (id : Nat) (c : Ctx) (x : List ℝ) : Outcome (List ℝ) :=
  match id with
  | 0 => .ok [0]
  | k + 1 =>
    match singles[k]? with
    | some p => do
      let v ← p.1.run c 0 p.2 x
      .ok [v + entry biases k]
    | none =>
      match comps[k - 22]? with
      | some q => do
        let v ← comp c q x
        .ok [v + entry biases k]
      | none => .ok [0]

/-- the loop that erases the entries of the table of shifts past the dimension in each row of 100, cec2014.cpp 77-86 -/
def eraseTail (dim : Nat) : Nat → List ℝ → List ℝ
  | _, [] => []
  | i, a :: l => if dim ≤ i % 100 then eraseTail dim (i + 1) l else a :: eraseTail dim (i + 1) l

/-- the constructor, cec2014.cpp 49-95; `md`, `sd` and `hd` are the tables of the matrices, the shifts and the shuffles, defined for every
problem and dimension asked for -/
def construct (md : Nat → Nat → List ℝ) (sd : Nat → List ℝ) (hd : Nat → Nat → List Int) (id dim : Nat) : Outcome Ctx :=
  if ¬(dim = 2 ∨ dim = 10 ∨ dim = 20 ∨ dim = 30 ∨ dim = 50 ∨ dim = 100) then .throws .invalidArgument
  else if id < 1 ∨ 30 < id then .throws .invalidArgument
  else if dim = 2 ∧ ((17 ≤ id ∧ id ≤ 22) ∨ (29 ≤ id ∧ id ≤ 30)) then .throws .invalidArgument
  else .ok ⟨dim, eraseTail dim 0 (sd id), md id dim, if (17 ≤ id ∧ id ≤ 22) ∨ id = 29 ∨ id = 30 then hd id dim else []⟩

/-- `cec2014::get_bounds`, cec2014.cpp 103-109 -/
def bounds (c : Ctx) : List ℝ × List ℝ := (List.replicate c.nx (-100), List.replicate c.nx 100)

end Verif.Cec14
