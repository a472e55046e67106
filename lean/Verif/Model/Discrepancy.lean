import Verif.Base.FlArith
import Verif.Base.Sort
import Verif.Model.Primes

/-!
# Model of src/utils/discrepancy.cpp

Arithmetic in an ordered field `K`, exact.
-/

set_option autoImplicit false

namespace Verif.Disc

open Verif Outcome

variable {K : Type} [Field K] [LinearOrder K]

/-- In-place differences, src/utils/discrepancy.cpp 78-80: `in[i] = in[i + 1] - in[i]`. -/
def diffStep (l : List (Fl K)) (i : Nat) : Outcome (List (Fl K)) := do
  let b ← Outcome.get l (i + 1)
  let a ← Outcome.get l i
  Outcome.set l i (Fl.sub b a)

/-- `sample_from_simplex`, src/utils/discrepancy.cpp 69-89; `srt` is std::sort. -/
def sampleFromSimplex (srt : (Fl K → Fl K → Bool) → List (Fl K) → List (Fl K)) (v : List (Fl K)) :
    Outcome (List (Fl K)) :=
  if v.any (fun x => Fl.lt x (.fin 0) || Fl.gt x (.fin 1)) then .throws .invalidArgument
  else if v.length > 0 then do
    let s ← stdSort srt Fl.lessThanF v
    let l := (.fin 0 :: s) ++ [.fin 1]
    let l ← (List.range (l.length - 1)).foldlM diffStep l
    pure l.dropLast
  else .throws .invalidArgument

/-- State of `van_der_corput` (members `m_base`, `m_counter`), include/pagmo/utils/discrepancy.hpp,
class van_der_corput; both are 32 bit unsigned. -/
structure Vdc where
  base : Nat
  counter : Nat
  deriving Repr, DecidableEq

/-- constructor, src/utils/discrepancy.cpp 91-97 -/
def Vdc.make (b n : Nat) : Outcome Vdc :=
  if b < 2 then .throws .invalidArgument else .ok ⟨b, n⟩

/-- loop of `van_der_corput::operator()`, src/utils/discrepancy.cpp 108-112. -/
def vdcLoop (b : Nat) : Nat → K → K → Nat → Outcome K
  | 0, _, _, _ => .nofuel
  | fuel + 1, ret, f, i =>
    if i > 0 then vdcLoop b fuel (ret + f * ((i % b : Nat) : K)) (f / (b : K)) (i / b) else .ok ret

/-- `van_der_corput::operator()`, src/utils/discrepancy.cpp 103-115: value and new state. The counter is a
32 bit unsigned. -/
def Vdc.next (v : Vdc) : Outcome (K × Vdc) := do
  let r ← vdcLoop v.base (v.counter + 1) 0 (1 / (v.base : K)) v.counter
  pure (r, { v with counter := (v.counter + 1) % 2 ^ 32 })

/-- `halton::halton`, src/utils/discrepancy.cpp 117-122. -/
def haltonMake (dim n : Nat) : Outcome (List Vdc) :=
  (List.range dim).mapM fun i => do
    let p ← prime (i + 1)
    Vdc.make p n

/-- `halton::operator()`, src/utils/discrepancy.cpp 128-135: the point and the new state. -/
def haltonNext (h : List Vdc) : Outcome (List K × List Vdc) := do
  let r ← h.mapM (fun v => v.next)
  pure (r.map Prod.fst, r.map Prod.snd)

/-- Client program: `n + 1` calls of `van_der_corput::operator()` (src/utils/discrepancy.cpp 103-115), last value. -/
def vdcRun (v : Vdc) : Nat → Outcome (K × Vdc)
  | 0 => v.next
  | n + 1 => do
    let r ← (v.next : Outcome (K × Vdc))
    vdcRun r.2 n

/-- Client program: `n + 1` calls of `halton::operator()` (src/utils/discrepancy.cpp 128-135), last point. -/
def haltonRun (h : List Vdc) : Nat → Outcome (List K × List Vdc)
  | 0 => haltonNext h
  | n + 1 => do
    let r ← (haltonNext h : Outcome (List K × List Vdc))
    haltonRun r.2 n

end Verif.Disc
