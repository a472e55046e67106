import Verif.Model.De
import Verif.Model.Sga

/-!
# Model of src/algorithms/sade.cpp and src/algorithms/de1220.cpp

The mutation variants, the adaptation of `F` and `CR`, the crossover, the bound repair, the selection and the exit conditions of the
two files are the same line by line (sade.cpp 180-553, de1220.cpp 193-567); they are modelled once. What differs is where the
mutation variant of a trial comes from: `pickV` gets the variant kept for the individual and gives the one to use. sade has
one variant and no `m_variant`; here it has a list with this variant everywhere.

The decimal constants 0.1, 0.15, 0.5, 0.9 are taken exactly. The draws of a normal distribution in one expression are made in an
unspecified order; here from left to right. The log and the screen output (sade.cpp 555-585, de1220.cpp 569-600) and what the
members are after an exception are not modelled.
-/

set_option autoImplicit false

namespace Verif.Alg

open Verif Prob

variable {K σ : Type} [Field K] [LinearOrder K]

/-- The parameters of `sade`, include/pagmo/algorithms/sade.hpp 239-246. -/
structure Sade (K : Type) where
  gens : Nat
  variant : Nat
  adptv : Nat
  ftol : Fl K
  xtol : Fl K
  memory : Bool
  deriving DecidableEq

/-- The constructor, sade.cpp 52-65. -/
def sadeCtor (gens variant adptv : Nat) (ftol xtol : Fl K) (memory : Bool) : Outcome (Sade K) :=
  if variant < 1 ∨ variant > 18 then .throws .invalidArgument
  else if adptv < 1 ∨ adptv > 2 then .throws .invalidArgument
  else .ok ⟨gens, variant, adptv, ftol, xtol, memory⟩

/-- The parameters of `de1220`, include/pagmo/algorithms/de1220.hpp 262-270. -/
structure De1220 (K : Type) where
  gens : Nat
  allowed : List Nat
  adptv : Nat
  ftol : Fl K
  xtol : Fl K
  memory : Bool
  deriving DecidableEq

/-- The constructor, de1220.cpp 51-68. An empty list of variants passes. -/
def de1220Ctor (gens : Nat) (allowed : List Nat) (adptv : Nat) (ftol xtol : Fl K) (memory : Bool) : Outcome (De1220 K) :=
  if allowed.any (fun v => decide (v < 1) || decide (v > 18)) then .throws .invalidArgument
  else if adptv < 1 ∨ adptv > 2 then .throws .invalidArgument
  else .ok ⟨gens, allowed, adptv, ftol, xtol, memory⟩

/-- What is kept between calls of `evolve`: `m_CR`, `m_F`, and for de1220 `m_variant`. -/
structure AdMem (K : Type) where
  CR : List (Fl K)
  F : List (Fl K)
  V : List Nat
  deriving DecidableEq

/-! ## Start values -/

/-- Body of the loops of sade.cpp 147-155: `CR` and `F` of one more individual. -/
def adInitStep (v : Env K σ) (D : Dist K σ) (adptv : Nat) (m : List (Fl K) × List (Fl K)) (_ : Nat) :
    Run σ (List (Fl K) × List (Fl K)) :=
  if adptv = 1 then do
    let u ← v.g.draw01
    let w ← v.g.draw01
    pure (m.1 ++ [u], m.2 ++ [v.op.add (v.op.mul w (.fin (9 / 10))) (.fin (1 / 10))])
  else do
    let u ← D.drawNormal
    let w ← D.drawNormal
    pure (m.1 ++ [v.op.add (v.op.mul u (.fin (15 / 100))) (.fin (1 / 2))],
      m.2 ++ [v.op.add (v.op.mul w (.fin (15 / 100))) (.fin (1 / 2))])

/-- sade.cpp 143-156, de1220.cpp 147-161 without the variants. -/
def adInit (v : Env K σ) (D : Dist K σ) (adptv NP : Nat) : Run σ (List (Fl K) × List (Fl K)) :=
  (List.range NP).foldlM (adInitStep v D adptv) ([], [])

/-- `m_allowed_variants[v_idx(m_e)]`. For an empty list `size() - 1u` wraps around. -/
def drawVariant (g : Gen K σ) (allowed : List Nat) : Run σ Nat := do
  let k ← g.drawNat 0 ((allowed.length + (2 ^ 64 - 1)) % 2 ^ 64)
  Run.lift (Outcome.get allowed k)

/-- Body of the loop de1220.cpp 162-164. -/
def initVStep (g : Gen K σ) (allowed : List Nat) (l : List Nat) (_ : Nat) : Run σ (List Nat) := do
  let w ← drawVariant g allowed
  pure (l ++ [w])

/-! ## Adaptation of `F` and `CR` -/

/-- `k` numbers from the normal distribution -/
def normals (D : Dist K σ) : Nat → Run σ (List (Fl K))
  | 0 => pure []
  | k + 1 => do
    let z ← D.drawNormal
    let zs ← normals D k
    pure (z :: zs)

/-- `n_dist(m_e) * 0.5 * (a - b)` with the number `z` drawn -/
def kick (op : Fl.Ops K) (z a b : Fl K) : Fl K := op.mul (op.mul z (.fin (1 / 2))) (op.sub a b)

/-- `m[r[k]]` -/
def par (m : List (Fl K)) (r : List Nat) (k : Nat) : Outcome (Fl K) := do
  let j ← Outcome.get r k
  Outcome.get m j

/-- How many normal numbers the new `F` needs: sade.cpp 190, 206, 221, 237-238, 255-256, 275, 290, 305, 321-322, 339-340, 357-358,
374-375, 391-392, 408-409, 425-426, 443-444, 462-463, 480-481. -/
def ideCountF (variant : Nat) : Nat :=
  if variant = 1 ∨ variant = 6 ∨ variant = 2 ∨ variant = 7 then 1
  else if variant = 11 ∨ variant = 12 ∨ variant = 13 ∨ variant = 14 then 3
  else 2

/-- How many normal numbers the new `CR` needs. -/
def ideCountCR (variant : Nat) : Nat :=
  if variant = 1 ∨ variant = 6 ∨ variant = 2 ∨ variant = 7 then 1
  else if variant = 11 ∨ variant = 12 ∨ variant = 13 ∨ variant = 14 then 1
  else 2

/-- The new `F` in iDE from the numbers `z` drawn, the lines above; `m` is `m_F` and `gb` is `gbIterF`. All values are read here,
also those the variant does not use. -/
def ideF (op : Fl.Ops K) (variant : Nat) (z m : List (Fl K)) (gb : Fl K) (i : Nat) (r : List Nat) : Outcome (Fl K) := do
  let mi ← Outcome.get m i
  let m0 ← par m r 0
  let m1 ← par m r 1
  let m2 ← par m r 2
  let m3 ← par m r 3
  let m4 ← par m r 4
  let m5 ← par m r 5
  let m6 ← par m r 6
  let z0 := z.getD 0 (.fin 0)
  let z1 := z.getD 1 (.fin 0)
  let z2 := z.getD 2 (.fin 0)
  if variant = 1 ∨ variant = 6 then .ok (op.add gb (kick op z0 m1 m2))
  else if variant = 2 ∨ variant = 7 then .ok (op.add m0 (kick op z0 m1 m2))
  else if variant = 3 ∨ variant = 8 then .ok (op.add (op.add mi (kick op z0 gb mi)) (kick op z1 m0 m1))
  else if variant = 4 ∨ variant = 9 then .ok (op.add (op.add gb (kick op z0 m0 m1)) (kick op z1 m2 m3))
  else if variant = 5 ∨ variant = 10 then .ok (op.add (op.add m4 (kick op z0 m0 m1)) (kick op z1 m2 m3))
  else if variant = 11 ∨ variant = 12 then
    .ok (op.add (op.add (op.add m0 (kick op z0 m1 m2)) (kick op z1 m3 m4)) (kick op z2 m5 m6))
  else if variant = 13 ∨ variant = 14 then
    .ok (op.add (op.add (op.add gb (kick op z0 m1 m2)) (kick op z1 m3 m4)) (kick op z2 m5 m6))
  else if variant = 15 ∨ variant = 16 then .ok (op.add (op.add m0 (kick op z0 m1 mi)) (kick op z1 m3 m4))
  else .ok (op.sub (op.add m0 (kick op z0 m1 mi)) (kick op z1 m2 gb))

/-- The new `CR` in iDE: sade.cpp 191, 207, 222-223, 239-240, 257-258, 276, 291, 306-307, 323-324, 341-342, 359, 376, 393, 410, 427-428,
445-446, 464-465, 482-483; `m` is `m_CR` and `gb` is `gbIterCR`. -/
def ideCR (op : Fl.Ops K) (variant : Nat) (z m : List (Fl K)) (gb : Fl K) (i : Nat) (r : List Nat) : Outcome (Fl K) := do
  let mi ← Outcome.get m i
  let m0 ← par m r 0
  let m1 ← par m r 1
  let m2 ← par m r 2
  let m3 ← par m r 3
  let m4 ← par m r 4
  let z0 := z.getD 0 (.fin 0)
  let z1 := z.getD 1 (.fin 0)
  if variant = 1 ∨ variant = 6 then .ok (op.add gb (kick op z0 m1 m2))
  else if variant = 2 ∨ variant = 7 then .ok (op.add m0 (kick op z0 m1 m2))
  else if variant = 3 ∨ variant = 8 then .ok (op.add (op.add mi (kick op z0 gb mi)) (kick op z1 m0 m1))
  else if variant = 4 ∨ variant = 9 then .ok (op.add (op.add gb (kick op z0 m0 m1)) (kick op z1 m2 m3))
  else if variant = 5 ∨ variant = 10 then .ok (op.add (op.add m4 (kick op z0 m0 m1)) (kick op z1 m2 m3))
  else if variant = 11 ∨ variant = 12 then
    .ok (op.add m4 (op.mul (op.mul z0 (.fin (1 / 2))) (op.sub (op.sub (op.add m0 m1) m2) m3)))
  else if variant = 13 ∨ variant = 14 then
    .ok (op.add gb (op.mul (op.mul z0 (.fin (1 / 2))) (op.sub (op.sub (op.add m0 m1) m2) m3)))
  else if variant = 15 ∨ variant = 16 then .ok (op.add (op.add m0 (kick op z0 m1 mi)) (kick op z1 m3 m4))
  else .ok (op.sub (op.add m0 (kick op z0 m1 mi)) (kick op z1 m3 gb))

/-- `F` in jDE, sade.cpp 181: the own value, or a new one with probability 0.1. -/
def jdeF (v : Env K σ) (m : List (Fl K)) (i : Nat) : Run σ (Fl K) := do
  let u ← v.g.draw01
  if Fl.lt u (.fin (9 / 10)) then Run.lift (Outcome.get m i)
  else do
    let w ← v.g.draw01
    pure (v.op.add (v.op.mul w (.fin (9 / 10))) (.fin (1 / 10)))

/-- `CR` in jDE, sade.cpp 182. -/
def jdeCR (v : Env K σ) (m : List (Fl K)) (i : Nat) : Run σ (Fl K) := do
  let u ← v.g.draw01
  if Fl.lt u (.fin (9 / 10)) then Run.lift (Outcome.get m i) else v.g.draw01

/-- `F` and `CR` of the trial. In the code jDE draws before and iDE within the branch of the variant, nothing is drawn in between. -/
def adTune (v : Env K σ) (D : Dist K σ) (adptv variant : Nat) (mF mCR : List (Fl K)) (iF iCR : Fl K) (i : Nat) (r : List Nat) :
    Run σ (Fl K × Fl K) :=
  if adptv = 1 then do
    let F ← jdeF v mF i
    let CR ← jdeCR v mCR i
    pure (F, CR)
  else do
    let z ← normals D (ideCountF variant)
    let F ← Run.lift (ideF v.op variant z mF iF i r)
    let z ← normals D (ideCountCR variant)
    let CR ← Run.lift (ideCR v.op variant z mCR iCR i r)
    pure (F, CR)

/-! ## Mutation and crossover -/

/-- The value written to `tmp[n]`: sade.cpp 197, 213, 229, 246-247, 264-265, 282, 297, 313, 330-331, 348-349, 365-366, 382-383, 399-400,
416-417, 434-435, 452-453, 471, 489-490. All values are read here, also those the variant does not use. -/
def adGene (op : Fl.Ops K) (F : Fl K) (variant : Nat) (gb : List (Fl K)) (po : List (List (Fl K))) (i : Nat) (r : List Nat)
    (tmp : List (Fl K)) (n : Nat) : Outcome (Fl K) := do
  let t ← Outcome.get tmp n
  let b ← Outcome.get gb n
  let xi ← Outcome.get po i
  let c ← Outcome.get xi n
  let p0 ← donor po r 0 n
  let p1 ← donor po r 1 n
  let p2 ← donor po r 2 n
  let p3 ← donor po r 3 n
  let p4 ← donor po r 4 n
  let p5 ← donor po r 5 n
  let p6 ← donor po r 6 n
  if variant = 1 ∨ variant = 6 then .ok (op.add b (op.mul F (op.sub p1 p2)))
  else if variant = 2 ∨ variant = 7 then .ok (op.add p0 (op.mul F (op.sub p1 p2)))
  else if variant = 3 ∨ variant = 8 then .ok (op.add (op.add t (op.mul F (op.sub b t))) (op.mul F (op.sub p0 p1)))
  else if variant = 4 ∨ variant = 9 then .ok (op.add (op.add b (op.mul (op.sub p0 p1) F)) (op.mul (op.sub p2 p3) F))
  else if variant = 5 ∨ variant = 10 then .ok (op.add (op.add p4 (op.mul (op.sub p0 p1) F)) (op.mul (op.sub p2 p3) F))
  else if variant = 11 ∨ variant = 12 then
    .ok (op.add (op.add (op.add p0 (op.mul (op.sub p1 p2) F)) (op.mul (op.sub p3 p4) F)) (op.mul (op.sub p5 p6) F))
  else if variant = 13 ∨ variant = 14 then
    .ok (op.add (op.add (op.add b (op.mul (op.sub p1 p2) F)) (op.mul (op.sub p3 p4) F)) (op.mul (op.sub p5 p6) F))
  else if variant = 15 ∨ variant = 16 then .ok (op.add (op.add p0 (op.mul (op.sub p1 c) F)) (op.mul (op.sub p2 p3) F))
  else .ok (op.sub (op.add p0 (op.mul (op.sub p1 c) F)) (op.mul (op.sub p2 b) F))

/-- Variants 1 to 5, 11, 13, 15, 17 use the exponential crossover, the others the binomial one: `do … while` and `for` loops of
sade.cpp 188-493. -/
def adCross (g : Gen K σ) (op : Fl.Ops K) (F CR : Fl K) (variant dim : Nat) (gb : List (Fl K)) (po : List (List (Fl K))) (i : Nat)
    (r : List Nat) (tmp : List (Fl K)) (n : Nat) : Run σ (List (Fl K)) :=
  if variant ≤ 5 ∨ variant = 11 ∨ variant = 13 ∨ variant = 15 ∨ variant = 17 then
    expCross g CR dim (adGene op F variant gb po i r) dim tmp n
  else binCross g CR dim (adGene op F variant gb po i r) tmp n

/-- The local variables of `evolve` and the adapted parameters. -/
structure AdVars (K : Type) where
  d : DVars K
  m : AdMem K
  gF : Fl K
  gCR : Fl K
  iF : Fl K
  iCR : Fl K

/-- A trial before it is evaluated: its point, `F`, `CR` and variant. -/
structure AdTrial (K : Type) where
  x : List (Fl K)
  F : Fl K
  CR : Fl K
  V : Nat

/-- Adaptation, mutation, crossover and bound repair, sade.cpp 169-502, de1220.cpp 180-513. -/
def adCandidate (v : Env K σ) (D : Dist K σ) (adptv : Nat) (pickV : Nat → Run σ Nat) (lb ub : List (Fl K)) (c : AdVars K)
    (NP i : Nat) : Run σ (AdTrial K) := do
  let r ← pickIdx v.g NP 7
  let w ← Run.lift (Outcome.get c.m.V i)
  let w ← pickV w
  let t ← adTune v D adptv w c.m.F c.m.CR c.iF c.iCR i r
  let tmp ← Run.lift (Outcome.get c.d.old i)
  let n ← v.g.drawNat 0 (lb.length - 1)
  let tmp ← adCross v.g v.op t.1 t.2 w lb.length c.d.gbIter c.d.old i r tmp n
  let y ← Rnd.forceBoundsRandom v.g v.op tmp lb ub
  pure ⟨y, t.1, t.2, w⟩

/-- Body of the loop over the population, sade.cpp 168-524, de1220.cpp 179-537. -/
def adIndividual (v : Env K σ) (D : Dist K σ) (P : AProb K) (adptv : Nat) (pickV : Nat → Run σ Nat) (NP : Nat) (c : AdVars K)
    (i : Nat) : Run (St K σ) (AdVars K) := do
  let t ← onRng (adCandidate v D adptv pickV P.lb P.ub c NP i)
  let f ← eval P t.x
  let a ← Run.lift (Outcome.get f 0)
  let fi ← Run.lift (Outcome.get c.d.fit i)
  let b ← Run.lift (Outcome.get fi 0)
  if Fl.le a b then do
    let fit ← Run.lift (Outcome.set c.d.fit i f)
    let new ← Run.lift (Outcome.set c.d.new i t.x)
    onPop (Pop.setXF v.sq P.info i t.x f)
    let mCR ← Run.lift (Outcome.set c.m.CR i t.CR)
    let mF ← Run.lift (Outcome.set c.m.F i t.F)
    let mV ← Run.lift (Outcome.set c.m.V i t.V)
    let b ← Run.lift (Outcome.get c.d.gbF 0)
    pure (if Fl.le a b then
        { c with d := { c.d with fit := fit, new := new, gbX := t.x, gbF := f }, m := ⟨mCR, mF, mV⟩, gF := t.F, gCR := t.CR }
      else { c with d := { c.d with fit := fit, new := new }, m := ⟨mCR, mF, mV⟩ })
  else do
    let x ← Run.lift (Outcome.get c.d.old i)
    let new ← Run.lift (Outcome.set c.d.new i x)
    pure { c with d := { c.d with new := new } }

/-- Body of the main loop, sade.cpp 166-553, de1220.cpp 177-567. -/
def adGen (v : Env K σ) (D : Dist K σ) (P : AProb K) (adptv : Nat) (ftol xtol : Fl K) (pickV : Nat → Run σ Nat) (NP : Nat) (_ : Nat)
    (c : AdVars K) : Run (St K σ) (AdVars K × Bool) := do
  let c ← (List.range NP).foldlM (adIndividual v D P adptv pickV NP) c
  let s ← Run.get
  let stop ← Run.lift (flatEnough v P xtol ftol s.pop)
  pure ({ c with d := { c.d with gbIter := c.d.gbX, old := c.d.new, new := c.d.old }, iF := c.gF, iCR := c.gCR }, stop)

/-- From the population and the adapted parameters to the end: sade.cpp 129-140, 158-586, de1220.cpp 133-144, 166-601. -/
def adRun (v : Env K σ) (D : Dist K σ) (P : AProb K) (gens adptv : Nat) (ftol xtol : Fl K) (pickV : Nat → Run σ Nat) (fuel : Nat)
    (m : AdMem K) : Run (St K σ) (AdMem K) := do
  let s ← Run.get
  let bi ← Run.lift (Pop.bestIdx v.srt v.sq P.info s.pop.f s.pop.tol)
  let gbX ← Run.lift (Outcome.get s.pop.x bi)
  let gbF ← Run.lift (Outcome.get s.pop.f bi)
  let gF ← Run.lift (Outcome.get m.F 0)
  let gCR ← Run.lift (Outcome.get m.CR 0)
  let c ← genLoop (adGen v D P adptv ftol xtol pickV s.pop.id.length) gens fuel 1
    ⟨⟨s.pop.x, s.pop.x, s.pop.f, gbX, gbF, gbX⟩, m, gF, gCR, gF, gCR⟩
  pure c.m

/-- The parameters the run starts with, sade.cpp 142-157: those kept, or new ones. -/
def sadeStart (v : Env K σ) (D : Dist K σ) (A : Sade K) (NP : Nat) (m : AdMem K) : Run σ (AdMem K) :=
  if m.CR.length ≠ NP ∨ m.F.length ≠ NP ∨ A.memory = false then do
    let p ← adInit v D A.adptv NP
    pure ⟨p.1, p.2, List.replicate NP A.variant⟩
  else pure ⟨m.CR, m.F, List.replicate NP A.variant⟩

/-- `sade::evolve`, sade.cpp 78-587. -/
def sadeEvolve (v : Env K σ) (D : Dist K σ) (P : AProb K) (A : Sade K) (fuel : Nat) (m : AdMem K) : Run (St K σ) (AdMem K) :=
  if P.info.nc ≠ 0 then Run.throw .invalidArgument
  else if P.info.nf ≠ 1 then Run.throw .invalidArgument
  else if P.info.stochastic then Run.throw .invalidArgument
  else if A.gens = 0 then pure m
  else do
    let s ← Run.get
    if s.pop.id.length < 7 then Run.throw .invalidArgument
    else do
      let m ← onRng (sadeStart v D A s.pop.id.length m)
      adRun v D P A.gens A.adptv A.ftol A.xtol pure fuel m

/-- The parameters the run starts with, de1220.cpp 146-165. -/
def de1220Start (v : Env K σ) (D : Dist K σ) (A : De1220 K) (NP : Nat) (m : AdMem K) : Run σ (AdMem K) :=
  if m.CR.length ≠ NP ∨ m.F.length ≠ NP ∨ m.V.length ≠ NP ∨ A.memory = false then do
    let p ← adInit v D A.adptv NP
    let V ← (List.range NP).foldlM (initVStep v.g A.allowed) []
    pure ⟨p.1, p.2, V⟩
  else pure m

/-- The variant of a trial, de1220.cpp 192. -/
def de1220Pick (v : Env K σ) (allowed : List Nat) (w : Nat) : Run σ Nat := do
  let u ← v.g.draw01
  if Fl.lt u (.fin (9 / 10)) then pure w else drawVariant v.g allowed

/-- `de1220::evolve`, de1220.cpp 80-602. -/
def de1220Evolve (v : Env K σ) (D : Dist K σ) (P : AProb K) (A : De1220 K) (fuel : Nat) (m : AdMem K) : Run (St K σ) (AdMem K) :=
  if P.info.nc ≠ 0 then Run.throw .invalidArgument
  else if P.info.nf ≠ 1 then Run.throw .invalidArgument
  else if P.info.stochastic then Run.throw .invalidArgument
  else if A.gens = 0 then pure m
  else do
    let s ← Run.get
    if s.pop.id.length < 7 then Run.throw .invalidArgument
    else do
      let m ← onRng (de1220Start v D A s.pop.id.length m)
      adRun v D P A.gens A.adptv A.ftol A.xtol (de1220Pick v A.allowed) fuel m

end Verif.Alg
