import Verif.Base.Fl
import Mathlib.Algebra.Order.Field.Basic
import Mathlib.Analysis.SpecialFunctions.Sqrt
import Mathlib.Tactic.Linarith
import Mathlib.Tactic.Positivity

/-!
# Arithmetic on doubles, idealised

Arithmetic on `Fl K` for an ordered field `K`: exact on finite values (no rounding, no overflow),
IEEE rules for infinities and NaN. Zero is unsigned.
-/

set_option autoImplicit false

namespace Verif.Fl

section
variable {K : Type} [Field K] [LinearOrder K]

/-- unary minus -/
def neg : Fl K → Fl K
  | nan => nan
  | ninf => pinf
  | fin a => fin (-a)
  | pinf => ninf

/-- `a + b` -/
def add : Fl K → Fl K → Fl K
  | nan, _ => nan
  | _, nan => nan
  | ninf, pinf => nan
  | pinf, ninf => nan
  | ninf, _ => ninf
  | _, ninf => ninf
  | pinf, _ => pinf
  | _, pinf => pinf
  | fin a, fin b => fin (a + b)

/-- `a - b` -/
def sub (a b : Fl K) : Fl K := add a (neg b)

/-- multiplication of an infinity of the given sign by a finite number -/
def infMul (pos : Bool) (b : K) : Fl K :=
  if b = 0 then nan else if (0 < b) = pos then pinf else ninf

/-- `a * b` -/
def mul : Fl K → Fl K → Fl K
  | nan, _ => nan
  | _, nan => nan
  | pinf, pinf => pinf
  | pinf, ninf => ninf
  | ninf, pinf => ninf
  | ninf, ninf => pinf
  | pinf, fin b => infMul true b
  | ninf, fin b => infMul false b
  | fin a, pinf => infMul true a
  | fin a, ninf => infMul false a
  | fin a, fin b => fin (a * b)

/-- `a / b`; division by zero follows IEEE with an unsigned (positive) zero. -/
def div : Fl K → Fl K → Fl K
  | nan, _ => nan
  | _, nan => nan
  | pinf, pinf => nan
  | pinf, ninf => nan
  | ninf, pinf => nan
  | ninf, ninf => nan
  | pinf, fin b => if 0 ≤ b then pinf else ninf
  | ninf, fin b => if 0 ≤ b then ninf else pinf
  | fin _, pinf => fin 0
  | fin _, ninf => fin 0
  | fin a, fin b => if b = 0 then (if a = 0 then nan else if 0 < a then pinf else ninf)
                    else fin (a / b)

/-- `std::abs` -/
def abs : Fl K → Fl K
  | nan => nan
  | ninf => pinf
  | pinf => pinf
  | fin a => fin (if a < 0 then -a else a)

/-- `std::max(a, b)`, i.e. `(a < b) ? b : a`; so `std::max(NaN, 0.)` is NaN. -/
def stdMax (a b : Fl K) : Fl K := if lt a b then b else a

/-- `std::min(a, b)`, i.e. `(b < a) ? b : a`. -/
def stdMin (a b : Fl K) : Fl K := if lt b a then b else a

end

/-- The arithmetic a piece of code is run with. Theorems that hold for every `Ops` hold in particular for
rounded IEEE arithmetic. -/
structure Ops (K : Type) where
  zero : Fl K
  one : Fl K
  add : Fl K → Fl K → Fl K
  sub : Fl K → Fl K → Fl K
  mul : Fl K → Fl K → Fl K
  div : Fl K → Fl K → Fl K

/-- Exact arithmetic. -/
def exact (K : Type) [Field K] [LinearOrder K] : Ops K where
  zero := .fin 0
  one := .fin 1
  add := add
  sub := sub
  mul := mul
  div := div

/-- Apply a rounding function to finite results. -/
def post {K : Type} (rnd : K → K) : Fl K → Fl K
  | fin a => fin (rnd a)
  | a => a

/-- Arithmetic where every finite result is rounded by `rnd`. -/
def rounded (K : Type) [Field K] [LinearOrder K] (rnd : K → K) : Ops K where
  zero := .fin 0
  one := .fin 1
  add a b := post rnd (add a b)
  sub a b := post rnd (sub a b)
  mul a b := post rnd (mul a b)
  div a b := post rnd (div a b)

/-- `std::sqrt` over the reals -/
noncomputable def sqrtR : Fl ℝ → Fl ℝ
  | nan => nan
  | ninf => nan
  | pinf => pinf
  | fin a => if a < 0 then nan else fin (Real.sqrt a)

end Verif.Fl
