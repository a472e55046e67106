import Verif.Base.Fl

/-!
# Specification of Pareto dominance and of non-dominated sorting

Independent of the code: everything is stated with the order on `Fl K`
(`-inf < finite < +inf < NaN`), quantifiers and set cardinalities.
-/

set_option autoImplicit false

namespace Verif.Spec

variable {K : Type} [LinearOrder K]

/-- `a` Pareto-dominates `b`: same length, no entry larger, at least one entry smaller. -/
def Dominates (a b : List (Fl K)) : Prop :=
  a.length = b.length ∧ (∀ i (ha : i < a.length) (hb : i < b.length), a[i] ≤ b[i]) ∧
    ∃ i, ∃ (ha : i < a.length) (hb : i < b.length), a[i] < b[i]

/-- All points have the same number of objectives. -/
def SameLength (pts : List (List (Fl K))) : Prop :=
  ∀ p ∈ pts, ∀ q ∈ pts, p.length = q.length

/-- Point number `i` dominates point number `j`. -/
def DomIdx (pts : List (List (Fl K))) (i j : Nat) : Prop :=
  ∃ (hi : i < pts.length) (hj : j < pts.length), Dominates pts[i] pts[j]

/-- `fronts` are the dominance layers of `pts`:
* together they list every index exactly once, none of them is empty;
* front `0` holds the indices dominated by nobody;
* an index is in front `k+1` iff all its dominators are in fronts `0..k`, one of them in front `k`. -/
structure IsLayering (pts : List (List (Fl K))) (fronts : List (List Nat)) : Prop where
  partition : fronts.flatten.Perm (List.range pts.length)
  nonempty : ∀ f ∈ fronts, f ≠ []
  first : ∀ (h : 0 < fronts.length) (i : Nat), i ∈ fronts[0] ↔
    i < pts.length ∧ ∀ j, ¬ DomIdx pts j i
  layer : ∀ k (h : k + 1 < fronts.length) (i : Nat), i ∈ fronts[k + 1] ↔
    i < pts.length ∧
    (∀ j, DomIdx pts j i → ∃ k' f, k' ≤ k ∧ fronts[k']? = some f ∧ j ∈ f) ∧
    ∃ j, DomIdx pts j i ∧ j ∈ fronts[k]

end Verif.Spec
