import Verif.Base.FlArith

/-!
# Specification of constraint satisfaction and of the documented preference order
-/

set_option autoImplicit false

namespace Verif.Spec

variable {K : Type} [Field K] [LinearOrder K]

/-- The constraint value `c` (already `|c|` for an equality) is within tolerance `t`. An infinite value
is never within an infinite tolerance of the same sign: the code computes `inf - inf = NaN`. -/
def Within (c t : Fl K) : Prop :=
  c ≠ .nan ∧ t ≠ .nan ∧ c ≤ t ∧ ¬ (c = t ∧ c.isInf = true)

/-- Constraint number `i` of fitness `f` (which has `nobj` objectives, then `nec` equalities, then
inequalities) is met within `tol`. -/
def Meets (nobj nec : Nat) (f tol : List (Fl K)) (i : Nat) : Prop :=
  ∃ c t, f[nobj + i]? = some c ∧ tol[i]? = some t ∧ Within (if i < nec then Fl.abs c else c) t

open Classical in
/-- Number of constraints met. -/
noncomputable def numMet (nobj nec nc : Nat) (f tol : List (Fl K)) : Nat :=
  ((List.range nc).filter (fun i => decide (Meets nobj nec f tol i))).length

/-- violation of a constraint value by a finite tolerance, zero when met -/
noncomputable def viol (isEq : Bool) (c t : ℝ) : ℝ := max ((if isEq then |c| else c) - t) 0

/-- Irreflexive, transitive, with transitive incomparability. -/
structure StrictWeakOrder {α : Type} (P : α → Prop) (r : α → α → Prop) : Prop where
  irrefl : ∀ a, P a → ¬ r a a
  trans : ∀ a b c, P a → P b → P c → r a b → r b c → r a c
  incomp : ∀ a b c, P a → P b → P c → ¬ r a b → ¬ r b a → ¬ r b c → ¬ r c b →
    ¬ r a c ∧ ¬ r c a

end Verif.Spec

namespace Verif.Spec

/-- Documented measure of infeasibility: the L2 norm of the violations of all constraints `c`, the
first `neq` of which are equalities. -/
noncomputable def l2viol (neq : Nat) (c tol : List ℝ) : ℝ :=
  Real.sqrt ((((c.take neq).zipWith (fun c t => viol true c t ^ 2) (tol.take neq)).sum) +
    (((c.drop neq).zipWith (fun c t => viol false c t ^ 2) (tol.drop neq)).sum))

end Verif.Spec
