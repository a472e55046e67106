import Verif.Base.Run
import Verif.Base.FlArith

/-!
# Random numbers

An engine is any state `σ`; the distributions are any functions of the state. What the standard guarantees about them
is `Gen.Lawful`. A theorem that holds for every lawful `Gen` and every state holds for every engine, seed and stream.
-/

set_option autoImplicit false

namespace Verif

/-- The distributions of `<random>` the code uses, as functions of the engine state. -/
structure Gen (K σ : Type) where
  /-- `std::uniform_real_distribution<double>(a, b)(e)` -/
  real : K → K → σ → K × σ
  /-- `std::uniform_int_distribution<T>(a, b)(e)` -/
  int : ℤ → ℤ → σ → ℤ × σ
  /-- conversion of an integer type to `double` -/
  ofInt : ℤ → K

/-- What is known about the distributions. `rep a`: `a` is a double. A real number drawn may be the upper limit (the
standard excludes it, rounding in implementations does not). Conversion to `double` rounds to an integral double and
does not leave an interval with representable ends. -/
structure Gen.Lawful {K σ : Type} [Field K] [LinearOrder K] (g : Gen K σ) (rep : K → Prop) : Prop where
  real_mem : ∀ a b e, a ≤ b → a ≤ (g.real a b e).1 ∧ (g.real a b e).1 ≤ b
  int_mem : ∀ a b e, a ≤ b → a ≤ (g.int a b e).1 ∧ (g.int a b e).1 ≤ b
  ofInt_mem : ∀ a b z : ℤ, rep a → rep b → a ≤ z → z ≤ b → (a : K) ≤ g.ofInt z ∧ g.ofInt z ≤ (b : K)
  ofInt_int : ∀ z : ℤ, ∃ w : ℤ, g.ofInt z = w

namespace Gen

variable {K σ : Type} [Field K] [LinearOrder K]

/-- `std::uniform_real_distribution<double>(a, b)(e)`: the behaviour is undefined unless `a ≤ b` and `b - a` does not
overflow. -/
def drawReal (g : Gen K σ) (op : Fl.Ops K) (a b : Fl K) : Run σ (Fl K) := fun e =>
  match a, b with
  | .fin a, .fin b =>
    if a ≤ b ∧ (op.sub (.fin b) (.fin a)).isFinite = true then (.ok (.fin (g.real a b e).1), (g.real a b e).2)
    else (.ub, e)
  | _, _ => (.ub, e)

/-- `std::uniform_real_distribution<double>(0., 1.)(e)` -/
def draw01 (g : Gen K σ) : Run σ (Fl K) := fun e => (.ok (.fin (g.real 0 1 e).1), (g.real 0 1 e).2)

/-- `std::uniform_int_distribution<T>(a, b)(e)`: undefined unless `a ≤ b`. -/
def drawInt (g : Gen K σ) (a b : ℤ) : Run σ ℤ := fun e =>
  if a ≤ b then (.ok (g.int a b e).1, (g.int a b e).2) else (.ub, e)

/-- The same for an unsigned type. -/
def drawNat (g : Gen K σ) (a b : Nat) : Run σ Nat := fun e =>
  if a ≤ b then (.ok (g.int a b e).1.toNat, (g.int a b e).2) else (.ub, e)

theorem wp_drawReal {g : Gen K σ} {rep : K → Prop} (hg : g.Lawful rep) {op : Fl.Ops K} {a b : K}
    {Q : Fl K → σ → Prop} {E : Exn → σ → Prop} {e : σ} (hab : a ≤ b)
    (hop : (op.sub (.fin b) (.fin a)).isFinite = true) (h : ∀ v e', a ≤ v → v ≤ b → Q (.fin v) e') :
    Run.wp (g.drawReal op (.fin a) (.fin b)) Q E e := by
  unfold Run.wp drawReal
  simp only [if_pos (And.intro hab hop)]
  exact h _ _ (hg.real_mem a b e hab).1 (hg.real_mem a b e hab).2

theorem wp_draw01 [IsStrictOrderedRing K] {g : Gen K σ} {rep : K → Prop} (hg : g.Lawful rep)
    {Q : Fl K → σ → Prop} {E : Exn → σ → Prop} {e : σ} (h : ∀ v e', 0 ≤ v → v ≤ 1 → Q (.fin v) e') :
    Run.wp g.draw01 Q E e :=
  h _ _ (hg.real_mem 0 1 e zero_le_one).1 (hg.real_mem 0 1 e zero_le_one).2

theorem wp_drawInt {g : Gen K σ} {rep : K → Prop} (hg : g.Lawful rep) {a b : ℤ}
    {Q : ℤ → σ → Prop} {E : Exn → σ → Prop} {e : σ} (hab : a ≤ b) (h : ∀ v e', a ≤ v → v ≤ b → Q v e') :
    Run.wp (g.drawInt a b) Q E e := by
  unfold Run.wp drawInt
  simp only [if_pos hab]
  exact h _ _ (hg.int_mem a b e hab).1 (hg.int_mem a b e hab).2

theorem wp_drawNat {g : Gen K σ} {rep : K → Prop} (hg : g.Lawful rep) {a b : Nat}
    {Q : Nat → σ → Prop} {E : Exn → σ → Prop} {e : σ} (hab : a ≤ b) (h : ∀ v e', a ≤ v → v ≤ b → Q v e') :
    Run.wp (g.drawNat a b) Q E e := by
  unfold Run.wp drawNat
  simp only [if_pos hab]
  have := hg.int_mem a b e (by omega)
  exact h _ _ (by omega) (by omega)

end Gen

/-- A generator for examples: the state is a list of numbers used in turn (clamped to `[0, 1]`, zero at its end); reals
are `a + u * (b - a)`, integers one of `a`, `b`. -/
def demoGen : Gen ℚ (List ℚ) where
  real a b s := (a + max 0 (min 1 (s.headD 0)) * (b - a), s.tail)
  int a b s := (if s.headD 0 < 1 / 2 then a else b, s.tail)
  ofInt z := z

theorem demoGen_lawful : demoGen.Lawful (fun _ => True) where
  real_mem a b e h := by
    have h0 : 0 ≤ max 0 (min 1 (e.headD 0)) := le_max_left _ _
    have h1 : max 0 (min 1 (e.headD 0)) ≤ 1 := max_le zero_le_one (min_le_left _ _)
    simp only [demoGen]
    constructor <;> nlinarith
  int_mem a b e h := by
    simp only [demoGen]
    split <;> constructor <;> omega
  ofInt_mem a b z _ _ h1 h2 := by
    simp only [demoGen]
    exact ⟨by exact_mod_cast h1, by exact_mod_cast h2⟩
  ofInt_int z := ⟨z, rfl⟩

end Verif
