import Verif.Props.MacoMem
import Verif.Props.GacoArchive

/-!
# C158: maco with a batch evaluator does what it does without
-/

set_option autoImplicit false
set_option linter.unusedSectionVars false

namespace Verif.Props

open Verif Alg Genetic Pop Run

variable {K σ : Type} [Field K] [LinearOrder K]

theorem keeps_if {τ α : Type} {I : τ → Prop} {c : Prop} [Decidable c] {m m' : Run τ α} {Q : α → Prop} (h : Keeps I m Q) (h' : Keeps I m' Q) :
    Keeps I (if c then m else m') Q := by
  split
  · exact h
  · exact h'

theorem sameOk_if {τ α : Type} {I : τ → Prop} {c : Prop} [Decidable c] {m m' k k' : Run τ α} (h : SameOk I m m') (h' : SameOk I k k') :
    SameOk I (if c then m else k) (if c then m' else k') := by
  split
  · exact h
  · exact h'

/-- C158. If the fitness is a function of the point and the batch evaluator computes this function for each point, then a run of maco with the batch
evaluator that ends without an exception does exactly the same as a run without: same population, same members, same log, same random engine, same
evaluations in the same order; and the other way round. -/
theorem C158_batch [IsStrictOrderedRing K] (v : MaEnv K σ) (P : AProb K) (A : Maco K) (b : Batch K) (F : List (Fl K) → List (Fl K)) (hF : BatchOf P b F)
    (hnx : 0 < P.info.nx) (hnobj : 0 < P.info.nobj) (fuel : Nat) (m : MaMem K) (r : MaMem K × List (List (Fl K))) (s s' : St K σ) (hi : Inv P.info s.pop) :
    maEvolve v P A (some b) fuel m s = (.ok r, s') ↔ maEvolve v P A none fuel m s = (.ok r, s') := by
  have hnf : 0 < P.info.nf := by unfold Info.nf; omega
  let I : St K σ → Prop := fun s1 => Inv P.info s1.pop ∧ s1.pop.id.length = s.pop.id.length
  have hrng : ∀ (s : St K σ) e, I s → I { s with e := e } := fun _ _ h => h
  have set : ∀ (xs : List (List (Fl K))) (u : Unit) (i : Nat), Keeps I (gaSet v.toGaEnv P xs u i) (fun _ => True) := by
    intro xs u i
    unfold gaSet setX
    refine keeps_bind (keeps_lift _) fun x _ => keeps_bind (R := fun _ => True) ?_ fun f _ => ?_
    · intro s1 a s2 hI e
      unfold eval at e
      rw [← (Prod.mk.inj e).2]
      split <;> exact ⟨hI, trivial⟩
    intro s1 a s2 hI e
    have key := op_run (sq := v.sq) hnx hnobj hI.1 (.setXF i x f)
    change wp (Pop.setXF v.sq P.info i x f) _ _ _ at key
    unfold onPop at e
    unfold wp at key
    rcases hr : Pop.setXF v.sq P.info i x f s1.pop with ⟨o, p⟩
    rw [hr] at key e
    obtain ⟨e1, rfl⟩ := Prod.mk.inj e
    dsimp only at e1
    subst e1
    obtain ⟨k1, k2, -⟩ := key
    exact ⟨⟨k1, (congrArg List.length k2.2.1).trans hI.2⟩, trivial⟩
  have evl : ∀ xs, Keeps I (gaEval v.toGaEnv P none s.pop.id.length xs) (fun _ => True) := by
    intro xs
    unfold gaEval
    exact keeps_foldlM (set xs) _ _
  have ants : ∀ (cum sig : List (Fl K)) (arch : List (List (Fl K))), Keeps I (onRng (maAnts v P A cum sig arch s.pop.id.length))
      (fun xs => xs.length = s.pop.id.length ∧ ∀ x ∈ xs, x.length = P.info.nx) :=
    fun cum sig arch => keeps_onRng_of hrng (keeps_gaAnts v.toGaEnv P (maGa A) cum sig (maGr arch) _)
  have gen : ∀ g c, Keeps I (maGen v P A none s.pop.id.length g c) (fun _ => True) := by
    intro g c
    unfold maGen
    refine keeps_bind keeps_get fun s1 _ => keeps_bind (keeps_lift _) fun u _ => keeps_bind (keeps_lift _) fun z _ => keeps_if (keeps_pure trivial) ?_
    exact keeps_bind (keeps_lift _) fun _ _ => keeps_bind (keeps_lift _) fun sig _ => keeps_bind (ants _ _ _) fun xs _ => keeps_bind (evl xs) fun _ _ =>
      keeps_bind keeps_get fun _ _ => keeps_pure trivial
  have same : ∀ g c, SameOk I (maGen v P A none s.pop.id.length g c) (maGen v P A (some b) s.pop.id.length g c) := by
    intro g c
    unfold maGen
    refine sameOk_bind (sameOk_refl _) keeps_get fun s1 _ => sameOk_bind (sameOk_refl _) (keeps_lift _) fun u _ =>
      sameOk_bind (sameOk_refl _) (keeps_lift _) fun z _ => sameOk_if (sameOk_refl _) ?_
    refine sameOk_bind (sameOk_refl _) (keeps_lift _) fun _ _ => sameOk_bind (sameOk_refl _) (keeps_lift _) fun sig _ =>
      sameOk_bind (sameOk_refl _) (ants _ _ _) fun xs hxs => sameOk_bind ?_ (evl xs) fun _ _ => sameOk_refl _
    intro s2 r s3 _
    exact gaEval_batch v.toGaEnv hF hnx hnf hxs.1 hxs.2 _ _
  have key : SameOk I (maEvolve v P A none fuel m) (maEvolve v P A (some b) fuel m) := by
    unfold maEvolve
    refine sameOk_bind (sameOk_refl _) keeps_get fun s1 h1 => ?_
    rw [h1.2]
    dsimp only
    split
    · exact sameOk_refl _
    split
    · exact sameOk_refl _
    split
    · exact sameOk_refl _
    split
    · exact sameOk_refl _
    split
    · exact sameOk_refl _
    split
    · exact sameOk_refl _
    · exact sameOk_bind (genLoop_same same gen _ _ _ _) (genLoop_keeps gen _ _ _ _) fun _ _ => sameOk_refl _
  exact (key s r s' ⟨hi, rfl⟩).symm

/-! ## Examples -/

/-- The hypotheses hold for the example, -/
example (e : List ℚ) (r : MaMem ℚ × List (List (Fl ℚ))) (s' : St ℚ (List ℚ)) :
    maEvolve maDemoEnv moDemo (maDemoPars true) (some moBatch) 3 maDemoMem (maDemoSt e) = (.ok r, s') ↔
    maEvolve maDemoEnv moDemo (maDemoPars true) none 3 maDemoMem (maDemoSt e) = (.ok r, s') :=
  C158_batch maDemoEnv moDemo _ moBatch _ moBatch_of (by decide) (by decide) 3 maDemoMem r (maDemoSt e) s' moDemo_inv

/-- and the run evaluates the ants of two generations and changes the population. -/
example : let r := maEvolve maDemoEnv moDemo (maDemoPars false) (some moBatch) 3 maDemoMem (maDemoSt [0, -1, 1, 1, 0, 1])
    r.2.evs.length = 16 ∧ r.2.pop.x ≠ moDemoSt.pop.x := by
  decide +kernel

end Verif.Props
