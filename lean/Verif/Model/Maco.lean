import Verif.Model.Gaco
import Verif.Model.HyCon3d
import Verif.Model.MultiObjective

/-!
# Model of src/algorithms/maco.cpp

The screen output is not modelled. Of the log only the ideal points are, with one line for each generation (verbosity 1). What the members are
after an exception thrown in the main loop is not modelled. The functions that compute pheromones and ants are those of gaco.cpp, except that
a row of the archive has no penalty in front; the model reuses those of Verif/Model/Gaco.lean on rows with a zero in front.
-/

set_option autoImplicit false

namespace Verif.Alg

open Verif Prob

variable {K σ : Type} [Field K] [LinearOrder K]

/-- What the algorithm is run with, besides `GaEnv`: the exclusive hypervolumes of a list of points, for a reference point whose distance is the
second argument. In the library this is `maHv`. -/
structure MaEnv (K σ : Type) extends GaEnv K σ where
  hv : List (List (Fl K)) → Fl K → Outcome (List (Fl K))

/-- `hypervolume(list_of_fit, true)`, `refpoint(offset)` and `contributions(ref_point)`, maco.cpp 195-199 and 344-348. -/
def maHv {R : Type} (N : Hv.Num R) (srt : Hv.Srt R) (srt2 : (Hv.Node R → Hv.Node R → Bool) → List (Hv.Node R) → List (Hv.Node R))
    (big : R) (l : List (List R)) (off : R) : Outcome (List R) := do
  let pts ← Hv.construct N l true
  let r ← Hv.refpoint N pts off
  Hv.hvContributions N true (Hv.bestAlgo N srt srt2 big r) pts r

/-- The parameters, include/pagmo/algorithms/maco.hpp 124-135. -/
structure Maco (K : Type) where
  gens : Nat
  ker : Nat
  threshold : Nat
  nGenMark : Nat
  evalstop : Nat
  focus : Fl K
  memory : Bool
deriving DecidableEq

/-- The members that `evolve` changes, maco.hpp 133-141; of `m_pop` the chromosomes and the fitness vectors. -/
structure MaMem (K : Type) where
  q : Fl K
  counter : Nat
  arch : List (List (Fl K))
  nEval : Nat
  mark : Nat
  popX : List (List (Fl K))
  popF : List (List (Fl K))
deriving DecidableEq

/-- The constructor, maco.cpp 67-87; the members after it. -/
def maCtor (gen ker : Nat) (q : Fl K) (threshold nGenMark evalstop : Nat) (focus : Fl K) (memory : Bool) : Outcome (Maco K × MaMem K) :=
  if Fl.lt focus (.fin 0) then .throws .invalidArgument
  else if (threshold < 1 ∨ threshold > gen) ∧ gen ≠ 0 ∧ memory = false then .throws .invalidArgument
  else if threshold < 1 ∧ gen ≠ 0 ∧ memory = true then .throws .invalidArgument
  else .ok (⟨gen, ker, threshold, nGenMark, evalstop, focus, memory⟩, ⟨q, 0, [], 0, 1, [], []⟩)

/-- What is left of the members after saving and loading, maco.cpp 569-574: `m_pop` is not saved. -/
def maReload (m : MaMem K) : MaMem K := { m with popX := [], popF := [] }

/-! ### The solution archive -/

/-- The first entries of row `i` are overwritten. -/
def maWrite (t : List (List (Fl K))) (i : Nat) (r : List (Fl K)) : Outcome (List (List (Fl K))) := do
  let d ← Outcome.get t i
  if d.length < r.length then .ub else Outcome.set t i (r ++ d.drop r.length)

/-- The comparator, maco.cpp 206-209 and 356-359; the indices are in range. -/
def maMore (c : List (Fl K)) (a b : Nat) : Bool := Fl.greaterThanF (c.getD a .nan) (c.getD b .nan)

/-- `i_arch`, `sol_archive` and `sol_archive_fit`. -/
structure MaSel (K : Type) where
  i : Nat
  arch : List (List (Fl K))
  fit : List (List (Fl K))

/-- Body of the loop that stores the individuals of a front, maco.cpp 213-223 and 363-372; nothing once the archive is full. -/
def maPut (P : AProb K) (ker : Nat) (lx lf : List (List (Fl K))) (sl : List Nat) (c : MaSel K) (i : Nat) : Outcome (MaSel K) :=
  if c.i < ker then do
    let j ← Outcome.get sl i
    let x ← Outcome.get lx j
    let f ← Outcome.get lf j
    let x ← gaSlice x 0 P.info.nx
    let f ← gaSlice f 0 P.info.nf
    let a ← maWrite c.arch c.i (x ++ f)
    let g ← maWrite c.fit c.i f
    pure ⟨c.i + 1, a, g⟩
  else pure c

/-- The first point whose objective `i` is `w`, maco.cpp 232-241 and 381-390. -/
def maFind (i : Nat) (w : Fl K) : List (List (Fl K)) → Nat → Outcome (Option Nat)
  | [], _ => pure none
  | f :: fs, n => do
    let a ← Outcome.get f i
    if Fl.eq a w then pure (some n) else maFind i w fs (n + 1)

/-- A border point is added if there is one, maco.cpp 231-242. -/
def maBorder (lx lf : List (List (Fl K))) (z : List (Fl K)) (bs : List (List (Fl K) × List (Fl K))) (i : Nat) :
    Outcome (List (List (Fl K) × List (Fl K))) := do
  let w ← Outcome.get z i
  let o ← maFind i w lf 0
  match o with
  | some n => do
    let x ← Outcome.get lx n
    let f ← Outcome.get lf n
    pure (bs ++ [(x, f)])
  | none => pure bs

/-- `border_points` and `border_fits`, maco.cpp 227-242 and 376-391. -/
def maBorders (P : AProb K) (lx lf : List (List (Fl K))) : Outcome (List (List (Fl K) × List (Fl K))) := do
  let z ← MO.ideal lf
  let bs ← (List.range P.info.nf).foldlM (maBorder lx lf z) []
  pure (bs ++ List.replicate (P.info.nf - bs.length) (List.replicate P.info.nx (.fin 1), List.replicate P.info.nf (.fin 1)))

/-- Body of the loop that stores the border points, maco.cpp 243-251 and 392-400. The entry of `sol_archive_fit` is taken from another row of the
archive, as in the code. -/
def maEdge (P : AProb K) (ker : Nat) (bs : List (List (Fl K) × List (Fl K))) (c : MaSel K) (i : Nat) : Outcome (MaSel K) := do
  let b ← Outcome.get bs i
  let x ← gaSlice b.1 0 P.info.nx
  let f ← gaSlice b.2 0 P.info.nf
  let a ← maWrite c.arch (ker - 1 - i) (x ++ f)
  let r ← Outcome.get a i
  let g ← gaSlice r P.info.nx P.info.nf
  let h ← maWrite c.fit (ker - 1 - i) g
  pure ⟨c.i, a, h⟩

/-- Body of the loop over the fronts, maco.cpp 180-255 and 329-404; `off` is the distance of the reference point. The state is `MaSel` and the number
of the front. -/
def maFront (v : MaEnv K σ) (P : AProb K) (ker : Nat) (off : Fl K) (cx cf : List (List (Fl K))) (c : MaSel K × Nat) (idx : List Nat) :
    Outcome (MaSel K × Nat) :=
  if c.1.i < ker then do
    let lf ← idx.mapM (Outcome.get cf)
    let lx ← idx.mapM (Outcome.get cx)
    let con ← v.hv lf off
    let sl ← stdSort v.srt (maMore con) (List.range con.length)
    let p ← (List.range con.length).foldlM (maPut P ker lx lf sl) c.1
    if p.i ≥ ker ∧ c.2 = 0 then do
      let bs ← maBorders P lx lf
      let e ← (List.range (min P.info.nf ker)).foldlM (maEdge P ker bs) p
      pure (e, c.2 + 1)
    else pure (p, c.2 + 1)
  else pure (c.1, c.2 + 1)

/-- The archive is filled from the candidates, maco.cpp 176-255 and 323-404; with `sol_archive_fit`. What the latter holds before does not matter,
since all of it is written; in the second of the two places it is not read before it is written again. -/
def maSelect (v : MaEnv K σ) (P : AProb K) (ker : Nat) (off : Fl K) (cx cf arch : List (List (Fl K))) : Outcome (MaSel K) := do
  let t ← MO.fnds cf
  let c ← t.fronts.foldlM (maFront v P ker off cx cf) (⟨0, arch, List.replicate ker (List.replicate P.info.nf (.fin 1))⟩, 0)
  pure c.1

/-- An individual in the archive, maco.cpp 261-268. -/
def maOld (P : AProb K) (arch : List (List (Fl K))) (j : Nat) : Outcome (List (Fl K) × List (Fl K)) := do
  let r ← Outcome.get arch j
  let f ← gaSlice r P.info.nx P.info.nf
  let x ← gaSlice r 0 P.info.nx
  pure (x, f)

/-- An individual of the population, maco.cpp 269-276. -/
def maNew (P : AProb K) (xs fs : List (List (Fl K))) (j : Nat) : Outcome (List (Fl K) × List (Fl K)) := do
  let f ← Outcome.get fs j
  let f ← gaSlice f 0 P.info.nf
  let x ← Outcome.get xs j
  let x ← gaSlice x 0 P.info.nx
  pure (x, f)

/-- The archive is filled with the first population, `(m_counter == 1 && m_memory == true) || (gen == 1 && m_memory == false)`. -/
def maFresh (A : Maco K) (m : MaMem K) (gen : Nat) : Bool := (decide (m.counter = 1) && A.memory) || (decide (gen = 1) && !A.memory)

/-- The archive is updated, `(m_counter > 1 && m_memory == true) || (gen > 1 && m_memory == false)`. -/
def maLater (A : Maco K) (m : MaMem K) (gen : Nat) : Bool := (decide (m.counter > 1) && A.memory) || (decide (gen > 1) && !A.memory)

/-- What the first part of a generation computes: the archive, `sol_archive_fit`, and the candidates for the next archive (`merged_dvs`, `merged_fit`). -/
structure MaTop (K : Type) where
  arch : List (List (Fl K))
  fit : List (List (Fl K))
  cand : List (List (Fl K) × List (Fl K))

/-- maco.cpp 173-278. -/
def maTop (v : MaEnv K σ) (P : AProb K) (A : Maco K) (n gen : Nat) (m : MaMem K) (arch xs fs : List (List (Fl K))) : Outcome (MaTop K) :=
  if maFresh A m gen then do
    let c ← maSelect v P A.ker (.fin (1 / 10)) xs fs arch
    pure ⟨c.arch, c.fit, []⟩
  else do
    let old ← (List.range A.ker).mapM (maOld P arch)
    let new ← (List.range n).mapM (maNew P xs fs)
    pure ⟨arch, old.map Prod.snd, old ++ new⟩

/-- Body of the loop that compares the ideal points, maco.cpp 291-295. -/
def maDiffer (z w : List (Fl K)) (c : Bool) (i : Nat) : Outcome Bool :=
  if c then pure true else do
    let a ← Outcome.get z i
    let b ← Outcome.get w i
    pure (!Fl.eq a b)

/-- `ideal_point_sol_arch`, and whether it is not the ideal point of all candidates: maco.cpp 283-295. -/
def maIdeals (P : AProb K) (A : Maco K) (gen : Nat) (m : MaMem K) (u : MaTop K) : Outcome (List (Fl K) × Bool) := do
  let z ← MO.ideal u.fit
  let w ← if maFresh A m gen then pure z else MO.ideal (u.cand.map Prod.snd)
  let c ← (List.range P.info.nf).foldlM (maDiffer z w) false
  pure (z, c)

/-- The counters, maco.cpp 296-310. -/
def maCounters (A : Maco K) (m : MaMem K) (check : Bool) : MaMem K :=
  let e := if check then incU m.nEval else 0
  let k := if e = 0 ∨ e > 2 then incU m.mark else m.mark
  { m with nEval := e, mark := if k > A.nGenMark then 1 else k }

/-- The archive after its update, maco.cpp 320-408. -/
def maUpdate (v : MaEnv K σ) (P : AProb K) (A : Maco K) (gen : Nat) (m : MaMem K) (u : MaTop K) : Outcome (List (List (Fl K))) :=
  if maLater A m gen then do
    let c ← maSelect v P A.ker (.fin (1 / 100)) (u.cand.map Prod.fst) (u.cand.map Prod.snd) u.arch
    pure c.arch
  else pure u.arch

/-! ### Pheromones and ants -/

/-- The parameters that maco.cpp 577-751 uses, as those of gaco.cpp. -/
def maGa (A : Maco K) : Gaco K := ⟨A.gens, A.ker, .fin 0, A.threshold, A.nGenMark, 0, A.evalstop, A.focus, A.memory⟩

/-- The members that maco.cpp 577-751 uses, as those of gaco.cpp. -/
def maGm (m : MaMem K) : GaMem K := ⟨.fin 0, m.q, m.counter, [], m.nEval, 1, m.mark⟩

/-- The rows, as those of gaco.cpp. -/
def maGr (arch : List (List (Fl K))) : List (List (Fl K)) := arch.map (fun r => Fl.fin 0 :: r)

/-- `m_q` and `prob_cumulative`, maco.cpp 589-636 (the same text as gaco.cpp 699-746). -/
def maPhero (v : MaEnv K σ) (A : Maco K) (gen : Nat) (m : MaMem K) (cum : List (Fl K)) : MaMem K × List (Fl K) :=
  let r := gaPhero v.toGaEnv (maGa A) gen (maGm m) cum
  ({ m with q := r.1.q }, r.2)

/-- `sigma_vec`, maco.cpp 638-682 (gaco.cpp 748-793). -/
def maSigma (v : MaEnv K σ) (P : AProb K) (A : Maco K) (gen : Nat) (m : MaMem K) (arch : List (List (Fl K))) : Outcome (List (Fl K)) :=
  gaSigma v.toGaEnv P (maGa A) gen (maGm m) (maGr arch)

/-- `generate_new_ants`, maco.cpp 685-751 (gaco.cpp 810-875). -/
def maAnts (v : MaEnv K σ) (P : AProb K) (A : Maco K) (cum sig : List (Fl K)) (arch : List (List (Fl K))) (n : Nat) : Run σ (List (List (Fl K))) :=
  gaAnts v.toGaEnv P (maGa A) cum sig (maGr arch) n

/-! ### The algorithm -/

/-- The local variables of the main loop that live longer than a generation; `log` are the ideal points logged. -/
structure MaVars (K : Type) where
  m : MaMem K
  arch : List (List (Fl K))
  cum : List (Fl K)
  stop : Bool
  log : List (List (Fl K))

/-- `m_sol_archive = sol_archive` -/
def maKeep (A : Maco K) (m : MaMem K) (arch : List (List (Fl K))) : MaMem K := if A.memory then { m with arch := arch } else m

/-- Body of the main loop, maco.cpp 157-521. The evaluation 469-516 is that of gaco.cpp 288-336. -/
def maGen (v : MaEnv K σ) (P : AProb K) (A : Maco K) (bfe : Option (Batch K)) (n : Nat) (gen : Nat) (b : MaVars K) :
    Run (St K σ) (MaVars K × Bool) := do
  let s ← Run.get
  let xs := if A.memory then b.m.popX else s.pop.x
  let fs := if A.memory then b.m.popF else s.pop.f
  let arch := if A.memory = true ∧ b.m.counter > 1 then b.m.arch else b.arch
  let u ← Run.lift (maTop v P A n gen b.m arch xs fs)
  let m1 := if maFresh A b.m gen then maKeep A b.m u.arch else b.m
  let z ← Run.lift (maIdeals P A gen m1 u)
  let m2 := maCounters A m1 z.2
  if A.evalstop ≠ 0 ∧ m2.nEval ≥ A.evalstop then pure ({ b with m := m2, arch := u.arch, stop := true }, true)
  else do
    let arch ← Run.lift (maUpdate v P A gen m2 u)
    let m3 := if maLater A m2 gen then maKeep A m2 arch else m2
    let ph := maPhero v A gen m3 b.cum
    let sig ← Run.lift (maSigma v P A gen ph.1 arch)
    let ants ← onRng (maAnts v P A ph.2 sig arch n)
    gaEval v.toGaEnv P bfe n ants
    let s' ← Run.get
    let m4 := if A.memory then { ph.1 with popX := s'.pop.x, popF := s'.pop.f } else ph.1
    pure (⟨m4, arch, ph.2, false, b.log ++ [z.1]⟩, false)

/-- `pop.set_xf(i, ant, ftns)`, maco.cpp 523-532. -/
def maFinal (v : MaEnv K σ) (P : AProb K) (arch : List (List (Fl K))) (_ : Unit) (i : Nat) : Run (St K σ) Unit := do
  let r ← Run.lift (Outcome.get arch i)
  let x ← Run.lift (gaSlice r 0 P.info.nx)
  let f ← Run.lift (gaSlice r P.info.nx P.info.nf)
  onPop (Pop.setXF v.sq P.info i x f)

/-- The members at the begin of `evolve`, maco.cpp 91-98. They remain so if one of the checks throws. -/
def maCount (A : Maco K) (m : MaMem K) (p : Pop.State K) : MaMem K :=
  if A.memory then
    let m := { m with counter := incU m.counter }
    if m.counter = 1 then { m with popX := p.x, popF := p.f } else m
  else m

/-- The variables at the beginning of the main loop, maco.cpp 108-110. -/
def maInit (P : AProb K) (A : Maco K) (m : MaMem K) (p : Pop.State K) : MaVars K :=
  ⟨maCount A m p, List.replicate A.ker (List.replicate (P.info.nx + P.info.nf) (.fin 1)), List.replicate A.ker (.fin 0), false, []⟩

/-- `maco::evolve`, maco.cpp 89-534. `m` are the members that `evolve` changes; the result is their new value and the ideal points logged. -/
def maEvolve (v : MaEnv K σ) (P : AProb K) (A : Maco K) (bfe : Option (Batch K)) (fuel : Nat) (m : MaMem K) :
    Run (St K σ) (MaMem K × List (List (Fl K))) := do
  let s ← Run.get
  let n := s.pop.id.length
  if n = 0 then Run.throw .invalidArgument
  else if P.info.stochastic then Run.throw .invalidArgument
  else if A.gens = 0 then pure (maCount A m s.pop, [])
  else if A.ker > n then Run.throw .invalidArgument
  else if P.info.nc ≠ 0 then Run.throw .invalidArgument
  else if P.info.nf < 2 then Run.throw .invalidArgument
  else do
    let b ← genLoop (maGen v P A bfe n) A.gens fuel 1 (maInit P A m s.pop)
    if b.stop = false then (List.range A.ker).foldlM (maFinal v P b.arch) () else pure ()
    pure (b.m, b.log)

end Verif.Alg
