import Verif.Model.Feasibility
import Verif.Props.Constrained

/-!
# C160: feasibility of decision vectors, and the tolerances
-/

set_option autoImplicit false

namespace Verif.Props

open Verif Alg Con Feas

variable {K σ : Type} [Field K] [LinearOrder K]

/-- C160. A decision vector of wrong size is refused, and the fitness function is not called. -/
theorem C160_wrong_size (sq : Fl K → Fl K) (P : AProb K) (tol x : List (Fl K)) (hx : x.length ≠ P.info.nx) (s : St K σ) :
    feasibilityX sq P tol x s = (.throws .invalidArgument, s) := by
  unfold feasibilityX
  show Run.bind _ _ s = _
  unfold Run.bind eval Pop.probFitness
  rw [if_pos hx, if_pos hx]

/-- C160. For a decision vector of right size the fitness function is called once. If it throws, the exception is passed on; if its result has the wrong size,
`std::invalid_argument` is thrown; else the answer is whether the result meets all constraints within the tolerances. The population and the engine
are left alone. -/
theorem C160_one_call [IsStrictOrderedRing K] (sq : Fl K → Fl K) (P : AProb K) (tol x : List (Fl K)) (hx : x.length = P.info.nx)
    (ht : tol.length = P.info.nec + P.info.nic) (s : St K σ) :
    (feasibilityX sq P tol x s).2 = { s with evs := s.evs ++ [(x, P.fit s.evs x)] } ∧
    (∀ e, P.fit s.evs x = .error e → (feasibilityX sq P tol x s).1 = .throws e) ∧
    (∀ f, P.fit s.evs x = .ok f → f.length ≠ P.info.nobj + P.info.nec + P.info.nic → (feasibilityX sq P tol x s).1 = .throws .invalidArgument) ∧
    (∀ f, P.fit s.evs x = .ok f → f.length = P.info.nobj + P.info.nec + P.info.nic →
      ∃ r, (feasibilityX sq P tol x s).1 = .ok r ∧ (r = true ↔ ∀ i, i < P.info.nec + P.info.nic → Spec.Meets P.info.nobj P.info.nec f tol i)) := by
  have hnf : P.info.nf = P.info.nobj + P.info.nec + P.info.nic := rfl
  have hrun : feasibilityX sq P tol x s = Run.bind (eval P x) (fun f => Run.lift (feasibilityF sq P.info.nobj P.info.nec P.info.nic tol f)) s := rfl
  rw [hrun]
  unfold Run.bind eval Pop.probFitness
  rw [if_neg (by simpa using hx), if_neg (by simpa using hx), hnf]
  rcases hf : P.fit s.evs x with e | f
  · exact ⟨rfl, fun e' h => by cases h; rfl, fun _ h => (nomatch h), fun _ h => (nomatch h)⟩
  · dsimp only
    by_cases hl : f.length = P.info.nobj + P.info.nec + P.info.nic
    · rw [if_neg (by simpa using hl)]
      refine ⟨rfl, fun _ h => (nomatch h), fun f' h hn => ?_, fun f' h _ => ?_⟩
      · cases h; exact absurd hl hn
      · cases h
        exact C14_feasible_iff_within sq _ _ _ tol f hl ht
    · rw [if_pos hl]
      refine ⟨rfl, fun _ h => (nomatch h), fun f' h hn => rfl, fun f' h hn => ?_⟩
      cases h; exact absurd hn hl

/-- C160. `set_c_tol` accepts exactly the vectors of the right size without NaN and without negative number, and stores them as they are; with one number, the
vector that repeats it. What is refused changes nothing, and the exception is `std::invalid_argument`. -/
theorem C160_set_c_tol (nc : Nat) (tol : List (Fl K)) (t : Fl K) :
    (setCTol nc tol = .ok tol ↔ tol.length = nc ∧ ∀ u ∈ tol, u ≠ .nan ∧ Fl.lt u (.fin 0) = false) ∧
    (setCTol nc tol ≠ .ok tol → setCTol nc tol = .throws .invalidArgument) ∧
    (setCTolAll nc t = .ok (List.replicate nc t) ↔ t ≠ .nan ∧ Fl.lt t (.fin 0) = false) ∧
    (setCTolAll nc t ≠ .ok (List.replicate nc t) → setCTolAll nc t = .throws .invalidArgument) ∧
    (0 < nc → setCTolAll nc t = setCTol nc (List.replicate nc t)) := by
  have hnan : ∀ u : Fl K, u.isNan = true ↔ u = .nan := by intro u; cases u <;> simp [Fl.isNan]
  have hany : ∀ l : List (Fl K), (l.any (fun t => t.isNan || Fl.lt t (.fin 0))) = true ↔ ¬ ∀ u ∈ l, u ≠ .nan ∧ Fl.lt u (.fin 0) = false := by
    intro l
    rw [List.any_eq_true]
    push Not
    refine exists_congr fun u => and_congr_right fun _ => ?_
    rw [Bool.or_eq_true, hnan]
    by_cases h : u = .nan
    · simp [h]
    · simp [h]
  have h1 : ∀ l : List (Fl K), setCTol nc l = .ok l ∧ (l.length = nc ∧ ∀ u ∈ l, u ≠ .nan ∧ Fl.lt u (.fin 0) = false) ∨
      setCTol nc l = .throws .invalidArgument ∧ ¬ (l.length = nc ∧ ∀ u ∈ l, u ≠ .nan ∧ Fl.lt u (.fin 0) = false) := by
    intro l
    unfold setCTol
    by_cases hl : l.length = nc
    · rw [if_neg (by simpa using hl)]
      by_cases ha : ∀ u ∈ l, u ≠ .nan ∧ Fl.lt u (.fin 0) = false
      · rw [if_neg (by rw [hany]; simpa using ha)]
        exact Or.inl ⟨rfl, hl, ha⟩
      · rw [if_pos ((hany l).mpr ha)]
        exact Or.inr ⟨rfl, fun h => ha h.2⟩
    · rw [if_pos hl]
      exact Or.inr ⟨rfl, fun h => hl h.1⟩
  have h2 : setCTolAll nc t = .ok (List.replicate nc t) ∧ (t ≠ .nan ∧ Fl.lt t (.fin 0) = false) ∨
      setCTolAll nc t = .throws .invalidArgument ∧ ¬ (t ≠ .nan ∧ Fl.lt t (.fin 0) = false) := by
    unfold setCTolAll
    by_cases hn : t = .nan
    · rw [if_pos ((hnan t).mpr hn)]
      exact Or.inr ⟨rfl, fun h => h.1 hn⟩
    · rw [if_neg (by rw [hnan]; exact hn)]
      by_cases hlt : Fl.lt t (.fin 0) = true
      · rw [if_pos hlt]
        exact Or.inr ⟨rfl, fun h => by rw [hlt] at h; exact absurd h.2 (by simp)⟩
      · rw [if_neg hlt]
        exact Or.inl ⟨rfl, hn, by simpa using hlt⟩
  refine ⟨?_, ?_, ?_, ?_, ?_⟩
  · rcases h1 tol with ⟨a, b⟩ | ⟨a, b⟩
    · exact ⟨fun _ => b, fun _ => a⟩
    · exact ⟨fun h => (by rw [a] at h; cases h), fun h => absurd h b⟩
  · rcases h1 tol with ⟨a, -⟩ | ⟨a, -⟩
    · exact fun h => absurd a h
    · exact fun _ => a
  · rcases h2 with ⟨a, b⟩ | ⟨a, b⟩
    · exact ⟨fun _ => b, fun _ => a⟩
    · exact ⟨fun h => (by rw [a] at h; cases h), fun h => absurd h b⟩
  · rcases h2 with ⟨a, -⟩ | ⟨a, -⟩
    · exact fun h => absurd a h
    · exact fun _ => a
  · intro hpos
    rcases h2 with ⟨a, b⟩ | ⟨a, b⟩ <;> rcases h1 (List.replicate nc t) with ⟨a', b'⟩ | ⟨a', b'⟩
    · rw [a, a']
    · exact absurd ⟨by simp, fun u hu => by rw [List.eq_of_mem_replicate hu]; exact b⟩ b'
    · exact absurd (b'.2 t (List.mem_replicate.mpr ⟨by omega, rfl⟩)) b
    · rw [a, a']

/-- C160. Larger tolerances make no fitness infeasible. -/
theorem C160_monotone [IsStrictOrderedRing K] (sq : Fl K → Fl K) (nobj nec nic : Nat) (tol tol' f : List (Fl K))
    (hf : f.length = nobj + nec + nic) (h1 : setCTol (nec + nic) tol = .ok tol) (h2 : setCTol (nec + nic) tol' = .ok tol')
    (hle : ∀ (i : Nat) (t t' : Fl K), tol[i]? = some t → tol'[i]? = some t' → Fl.le t t' = true)
    (h : feasibilityF sq nobj nec nic tol f = .ok true) : feasibilityF sq nobj nec nic tol' f = .ok true := by
  obtain ⟨l1, n1⟩ := (C160_set_c_tol (nec + nic) tol (.fin 0)).1.mp h1
  obtain ⟨l2, n2⟩ := (C160_set_c_tol (nec + nic) tol' (.fin 0)).1.mp h2
  obtain ⟨r, hr, hm⟩ := C14_feasible_iff_within sq nobj nec nic tol f hf l1
  obtain ⟨r', hr', hm'⟩ := C14_feasible_iff_within sq nobj nec nic tol' f hf l2
  rw [hr] at h
  have := hm.mp (Outcome.ok.inj h)
  rw [hr', hm'.mpr]
  intro i hi
  obtain ⟨c, t, hc, ht, hw⟩ := this i hi
  have hi' : i < tol'.length := by omega
  have ht' := List.getElem?_eq_getElem hi'
  refine ⟨c, tol'[i], hc, ht', ?_⟩
  have hn' := (n2 _ (List.getElem_mem hi')).1
  have e := hle i t _ ht ht'
  revert hw
  generalize (if i < nec then Fl.abs c else c) = d
  rintro ⟨w1, w2, w3, w4⟩
  have e' : t ≤ tol'[i] := by
    revert e
    generalize tol'[i] = t'
    clear * -
    intro e
    cases t <;> cases t' <;> simp_all [Fl.le, Fl.lt, Fl.eq, Fl.lt_def, Fl.cls, le_iff_lt_or_eq]
  refine ⟨w1, hn', w3.trans e', ?_⟩
  rintro ⟨h3, hinf⟩
  exact w4 ⟨le_antisymm w3 (h3 ▸ e'), hinf⟩

/-! ## Examples -/

/-- one objective, one equality and one inequality: `(x₀ + x₁, x₀ - 1, x₁ - 2)` -/
def feasDemo : AProb ℚ := ⟨⟨2, 1, 1, 1, false⟩, [.fin 0, .fin 0], [.fin 4, .fin 4], 0, fun _ x => match x with
  | [a, b] => .ok [Fl.add a b, Fl.add a (.fin (-1)), Fl.add b (.fin (-2))]
  | _ => .error (.user 0)⟩

def feasDemoSt : St ℚ (List ℚ) := ⟨⟨[], [], [], [], [], [], fun n => n, []⟩, [], []⟩

example : (feasibilityX id feasDemo [.fin 0, .fin 0] [.fin 1, .fin 2] feasDemoSt).1 = .ok true ∧
    (feasibilityX id feasDemo [.fin 0, .fin 0] [.fin 1, .fin 3] feasDemoSt).1 = .ok false ∧
    (feasibilityX id feasDemo [.fin 0, .fin 1] [.fin 1, .fin 3] feasDemoSt).1 = .ok true ∧
    (feasibilityX id feasDemo [.fin 0, .fin 1] [.fin 1, .fin 3] feasDemoSt).2.evs.length = 1 ∧
    (feasibilityX id feasDemo [.fin 0, .fin 1] [.fin 1] feasDemoSt).2.evs.length = 0 := by
  decide +kernel

example := C160_one_call (σ := List ℚ) id feasDemo [.fin 0, .fin 1] [.fin 1, .fin 3] rfl rfl feasDemoSt

example : feasibilityF id 1 1 1 [.fin (1 / 2 : ℚ), .pinf] [.fin 3, .fin (-1 / 2), .fin 5] = .ok true :=
  C160_monotone id 1 1 1 [.fin (1 / 2), .fin 6] [.fin (1 / 2), .pinf] _ rfl (by decide +kernel) (by decide +kernel) (by
    intro i t t' h h'
    match i with
    | 0 => cases h; cases h'; decide +kernel
    | 1 => cases h; cases h'; decide +kernel
    | i + 2 => cases h) (by decide +kernel)

example : setCTolAll 2 (.fin (-1 : ℚ)) = .throws .invalidArgument ∧ setCTolAll 2 (.fin (1 : ℚ)) = .ok [.fin 1, .fin 1] := by decide +kernel

end Verif.Props
