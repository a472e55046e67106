import Verif.Props.De
import Verif.Props.Nsga2
import Verif.Model.Sade

/-!
# What a generation of sade and de1220 is to do
-/

set_option autoImplicit false

namespace Verif.Props

open Verif Run Prob Pop Alg Rnd

variable {K σ : Type} [Field K] [LinearOrder K]

/-! ### The mutation variants -/

/-- Whose vector appears in a mutation formula: the best individual, the individual itself, or the `k`-th of those chosen. -/
inductive Who where
  | best
  | own
  | ind (k : Nat)
  deriving DecidableEq

/-- a number for everybody -/
def Who.val (b o : K) (p : Nat → K) : Who → K
  | .best => b
  | .own => o
  | .ind k => p k

/-- The variants by their names: a base vector, and the differences added to it. -/
def mutationOf (variant : Nat) : Who × List (Who × Who) :=
  match variant with
  | 1 | 6 => (.best, [(.ind 1, .ind 2)])
  | 2 | 7 => (.ind 0, [(.ind 1, .ind 2)])
  | 3 | 8 => (.own, [(.best, .own), (.ind 0, .ind 1)])
  | 4 | 9 => (.best, [(.ind 0, .ind 1), (.ind 2, .ind 3)])
  | 5 | 10 => (.ind 4, [(.ind 0, .ind 1), (.ind 2, .ind 3)])
  | 11 | 12 => (.ind 0, [(.ind 1, .ind 2), (.ind 3, .ind 4), (.ind 5, .ind 6)])
  | 13 | 14 => (.best, [(.ind 1, .ind 2), (.ind 3, .ind 4), (.ind 5, .ind 6)])
  | 15 | 16 => (.ind 0, [(.ind 1, .own), (.ind 2, .ind 3)])
  | _ => (.ind 0, [(.ind 1, .own), (.best, .ind 2)])

/-- The variants with exponential crossover: the names end with `exp`. -/
def isExp (variant : Nat) : Bool := variant ∈ [1, 2, 3, 4, 5, 11, 13, 15, 17]

/-- base plus the sum of the weighted differences -/
def mutant (val : Who → K) (w : Nat → K) (m : Who × List (Who × Who)) : K :=
  val m.1 + (m.2.zipIdx.map (fun q => w q.2 * (val q.1.1 - val q.1.2))).sum

/-! ### Crossover -/

/-- Component `j` of `y`: from the mutation formula. -/
def FromGene (gene : List (Fl K) → Nat → Outcome (Fl K)) (tmp y : List (Fl K)) (j : Nat) : Prop :=
  ∃ w, gene tmp j = .ok w ∧ y[j]? = some w

/-- Exponential crossover: `L` consecutive components (cyclically) from a random position on come from the mutation. After each
one a number is drawn; less than `CR`, it goes on. -/
def ByExp (gene : List (Fl K) → Nat → Outcome (Fl K)) (CR : Fl K) (dim : Nat) (tmp y : List (Fl K)) : Prop :=
  y.length = dim ∧ ∃ (n L : Nat) (u : Nat → K), n < dim ∧ 0 < L ∧ L ≤ dim ∧ (∀ k, k < L → 0 ≤ u k ∧ u k ≤ 1) ∧
    (∀ k, k + 1 < L → Fl.lt (.fin (u k)) CR = true) ∧ (L < dim → Fl.lt (.fin (u (L - 1))) CR = false) ∧
    ∀ k, k < dim → (k < L → FromGene gene tmp y ((n + k) % dim)) ∧ (L ≤ k → y[(n + k) % dim]? = tmp[(n + k) % dim]?)

/-- Binomial crossover: a number is drawn for each component; less than `CR`, the component comes from the mutation. One
component comes from the mutation in any case. -/
def ByBin (gene : List (Fl K) → Nat → Outcome (Fl K)) (CR : Fl K) (dim : Nat) (tmp y : List (Fl K)) : Prop :=
  y.length = dim ∧ ∃ (n : Nat) (u : Nat → K), n < dim ∧ (∀ k, k < dim → 0 ≤ u k ∧ u k ≤ 1) ∧
    ∀ k, k < dim → (Fl.lt (.fin (u k)) CR = true ∨ k + 1 = dim → FromGene gene tmp y ((n + k) % dim)) ∧
      (¬ (Fl.lt (.fin (u k)) CR = true ∨ k + 1 = dim) → y[(n + k) % dim]? = tmp[(n + k) % dim]?)

/-! ### Adaptation -/

/-- `F` and `CR` of the trial for individual `i`: the own values or new ones (jDE), or from those of others (iDE). -/
def Tuned (op : Fl.Ops K) (adptv variant : Nat) (mF mCR : List (Fl K)) (gF gCR : Fl K) (i : Nat) (r : List Nat) (F CR : Fl K) : Prop :=
  (adptv = 1 → (mF[i]? = some F ∨ ∃ u : K, 0 ≤ u ∧ u ≤ 1 ∧ F = op.add (op.mul (.fin u) (.fin (9 / 10))) (.fin (1 / 10))) ∧
    (mCR[i]? = some CR ∨ ∃ u : K, 0 ≤ u ∧ u ≤ 1 ∧ CR = .fin u)) ∧
  (adptv ≠ 1 → ∃ z z' : List (Fl K), AllFin z ∧ AllFin z' ∧ z.length = ideCountF variant ∧ z'.length = ideCountCR variant ∧
    ideF op variant z mF gF i r = .ok F ∧ ideCR op variant z' mCR gCR i r = .ok CR)

/-- `k` different indexes below `NP` -/
def Picks (NP k : Nat) (r : List Nat) : Prop := r.length = k ∧ r.Nodup ∧ ∀ j ∈ r, j < NP

/-! ### Trials and generations -/

/-- What a run works with: the individuals with their `F`, `CR` and variant, the best one with its `F` and `CR`, the evaluations. -/
structure Herd (K : Type) where
  x : List (List (Fl K))
  f : List (List (Fl K))
  F : List (Fl K)
  CR : List (Fl K)
  V : List Nat
  bX : List (Fl K)
  bf : List (Fl K)
  gF : Fl K
  gCR : Fl K
  evs : List (ECall K)

/-- the objective -/
def valueOf (f : List (Fl K)) : Fl K := f.headD .nan

/-- The trial is the new individual, with the parameters that made it. -/
def Herd.accept (h : Herd K) (i : Nat) (y f : List (Fl K)) (F CR : Fl K) (W : Nat) : Herd K :=
  { h with x := h.x.set i y, f := h.f.set i f, F := h.F.set i F, CR := h.CR.set i CR, V := h.V.set i W }

/-- The trial is the best so far. -/
def Herd.lead (h : Herd K) (y f : List (Fl K)) (F CR : Fl K) : Herd K := { h with bX := y, bf := f, gF := F, gCR := CR }

/-- The trial point `y` for individual `i`, made with `F`, `CR` and the variant `W` from the population `G` at the begin of the
generation; `h`: with the trials since. -/
def TrialFor (op : Fl.Ops K) (P : AProb K) (adptv NP : Nat) (VarOk : Nat → Nat → Prop) (G h : Herd K) (i : Nat) (y : List (Fl K))
    (F CR : Fl K) (W : Nat) : Prop :=
  ∃ (r : List Nat) (w : Nat) (xi m : List (Fl K)), Picks NP 7 r ∧ h.V[i]? = some w ∧ VarOk w W ∧
    Tuned op adptv W h.F h.CR G.gF G.gCR i r F CR ∧ G.x[i]? = some xi ∧
    (isExp W = true → ByExp (adGene op F W G.bX G.x i r) CR P.info.nx xi m) ∧
    (isExp W = false → ByBin (adGene op F W G.bX G.x i r) CR P.info.nx xi m) ∧ Repaired P.lb P.ub m y

/-- Individual `i` in turn: the trial is evaluated and replaces the individual if it is not worse. -/
def Tried (op : Fl.Ops K) (P : AProb K) (adptv NP : Nat) (VarOk : Nat → Nat → Prop) (G : Herd K) (i : Nat) (h h' : Herd K) : Prop :=
  ∃ (y f fi : List (Fl K)) (F CR : Fl K) (W : Nat), TrialFor op P adptv NP VarOk G h i y F CR W ∧ P.fit h.evs y = .ok f ∧ f.length = 1 ∧
    h.f[i]? = some fi ∧
    h' = (if Fl.le (valueOf f) (valueOf fi) = true then
        (if Fl.le (valueOf f) (valueOf h.bf) = true then ({ h with evs := h.evs ++ [(y, Except.ok f)] }.accept i y f F CR W).lead y f F CR
          else { h with evs := h.evs ++ [(y, Except.ok f)] }.accept i y f F CR W)
      else { h with evs := h.evs ++ [(y, Except.ok f)] })

/-- `R 0`, …, `R (n - 1)` one after the other -/
inductive InTurn {α : Type} (R : Nat → α → α → Prop) : Nat → α → α → Prop
  | zero (a : α) : InTurn R 0 a a
  | succ {n : Nat} {a b c : α} : InTurn R n a b → R n b c → InTurn R (n + 1) a c

/-- The best so far is an individual of the population, and no individual is better if there are no NaN. -/
def LeadOk (clean : Prop) (h : Herd K) : Prop :=
  (∃ j : Nat, h.x[j]? = some h.bX ∧ h.f[j]? = some h.bf) ∧ (clean → ∀ g ∈ h.f, NotAbove h.bf g)

/-- One generation: every individual in turn. -/
def AdGeneration (clean : Prop) (op : Fl.Ops K) (P : AProb K) (adptv NP : Nat) (VarOk : Nat → Nat → Prop) (h h' : Herd K) : Prop :=
  LeadOk clean h ∧ InTurn (Tried op P adptv NP VarOk h) NP h h'

/-- The exit conditions: the distance of the best and the worst individual, or of their fitnesses, is below the tolerance. -/
def Flat (v : Env K σ) (P : AProb K) (ftol xtol : Fl K) (tol : List (Fl K)) (x f : List (List (Fl K))) : Prop :=
  ∃ (bi wi : Nat) (xb xw fb fw : List (Fl K)), bestIdx v.srt v.sq P.info f tol = .ok bi ∧ worstIdx v.srt v.sq P.info f tol = .ok wi ∧
    x[bi]? = some xb ∧ x[wi]? = some xw ∧ f[bi]? = some fb ∧ f[wi]? = some fw ∧
    (Fl.lt ((List.zipWith (fun a b => Fl.abs (v.op.sub a b)) xw xb).foldl v.op.add (.fin 0)) xtol = true ∨
      Fl.lt (Fl.abs (v.op.sub (valueOf fw) (valueOf fb))) ftol = true)

/-- The generations of a run: all of them, none ending with an exit condition; or the exit condition is met after the last one. -/
def AdRun (clean : Prop) (v : Env K σ) (P : AProb K) (adptv NP : Nat) (VarOk : Nat → Nat → Prop) (ftol xtol : Fl K) (tol : List (Fl K))
    (gens : Nat) (h h' : Herd K) : Prop :=
  Steps (fun a b => AdGeneration clean v.op P adptv NP VarOk a b ∧ ¬ Flat v P ftol xtol tol b.x b.f) gens h h' ∨
  ∃ (k : Nat) (h1 : Herd K), k < gens ∧
    Steps (fun a b => AdGeneration clean v.op P adptv NP VarOk a b ∧ ¬ Flat v P ftol xtol tol b.x b.f) k h h1 ∧
    AdGeneration clean v.op P adptv NP VarOk h1 h' ∧ Flat v P ftol xtol tol h'.x h'.f

/-- The parameters at the start of a run that does not continue an earlier one. -/
def FreshPars (op : Fl.Ops K) (adptv NP : Nat) (F CR : List (Fl K)) : Prop :=
  F.length = NP ∧ CR.length = NP ∧
  (adptv = 1 → (∀ a ∈ F, ∃ u : K, 0 ≤ u ∧ u ≤ 1 ∧ a = op.add (op.mul (.fin u) (.fin (9 / 10))) (.fin (1 / 10))) ∧
    ∀ a ∈ CR, ∃ u : K, 0 ≤ u ∧ u ≤ 1 ∧ a = .fin u) ∧
  (adptv ≠ 1 → ∀ a ∈ F ++ CR, ∃ z : K, a = op.add (op.mul (.fin z) (.fin (15 / 100))) (.fin (1 / 2)))

/-- What a run does: from the population and the parameters `m0`. -/
structure AdDone (v : Env K σ) (P : AProb K) (gens adptv : Nat) (ftol xtol : Fl K) (VarOk : Nat → Nat → Prop) (s : St K σ) (m0 m' : AdMem K)
    (s' : St K σ) : Prop where
  evolved : Evolved P gens s s'
  sizes : m'.F.length = s.pop.id.length ∧ m'.CR.length = s.pop.id.length ∧ m'.V.length = s.pop.id.length
  finite : AllFin m'.F ∧ AllFin m'.CR
  run : ∃ h h' : Herd K, h.x = s.pop.x ∧ h.f = s.pop.f ∧ h.evs = s.evs ∧ h.F = m0.F ∧ h.CR = m0.CR ∧ h.V = m0.V ∧
    m0.F[0]? = some h.gF ∧ m0.CR[0]? = some h.gCR ∧
    AdRun (∀ f ∈ s.pop.f, Fl.nan ∉ f) v P adptv s.pop.id.length VarOk ftol xtol s.pop.tol gens h h' ∧
    LeadOk (∀ f ∈ s.pop.f, Fl.nan ∉ f) h' ∧
    h'.x = s'.pop.x ∧ h'.f = s'.pop.f ∧ h'.evs = s'.evs ∧ h'.F = m'.F ∧ h'.CR = m'.CR ∧ h'.V = m'.V

end Verif.Props
