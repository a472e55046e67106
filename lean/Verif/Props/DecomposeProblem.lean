import Verif.Model.MetaProblem
import Verif.Props.Decompose
import Mathlib.Algebra.Order.Group.Abs

/-!
# C26, C27, C78: the decompose meta-problem
-/

set_option autoImplicit false

namespace Verif.Props

open Verif Prob Meta

section
variable {K : Type} [Field K] [LinearOrder K]

omit [Field K] [LinearOrder K] in
theorem inner_fitness_length {p : Inner K} {x f : List (Fl K)} (h : p.fitness x = .ok f) : f.length = p.prob.nf := by
  unfold Inner.fitness checkLen at h
  split at h
  · cases h
  · simp only [Outcome.bind_ok] at h
    cases hu : p.user x with
    | error e => rw [hu] at h; cases h
    | ok f =>
      rw [hu] at h
      simp only [ofUser, Outcome.bind_ok] at h
      split at h
      · cases h
      · simp only [Outcome.bind_ok, Outcome.ok.injEq] at h
        rename_i h'; rw [← h]; exact not_not.mp h'

omit [Field K] in
theorem adaptZ_spec (adapt : Bool) (f z : List (Fl K)) (h : f.length = z.length) :
    ∃ z', adaptZ adapt f z = .ok z' ∧ z'.length = z.length ∧
      ∀ (i : Nat) (a b : Fl K), f[i]? = some a → z[i]? = some b →
        z'[i]? = some (if adapt && Fl.lt a b then a else b) := by
  unfold adaptZ
  cases adapt with
  | false => exact ⟨z, by simp, rfl, fun i a b _ hb => by simpa using hb⟩
  | true =>
    rw [if_pos rfl]
    have key := Outcome.range_sat (f := adaptAt f)
      (fun k z' => z'.length = z.length ∧ ∀ (i : Nat) (a b : Fl K), f[i]? = some a → z[i]? = some b →
        z'[i]? = some (if i < k ∧ Fl.lt a b = true then a else b)) f.length z ⟨rfl, fun i a b _ hb => by simpa using hb⟩ (by
        rintro k s hk ⟨hl, hP⟩
        unfold adaptAt
        rw [Outcome.get_of_lt hk, Outcome.get_of_lt (by omega : k < s.length)]
        simp only [Outcome.bind_ok]
        have hfk : f[k]? = some f[k] := List.getElem?_eq_getElem hk
        have hzk : z[k]? = some (z[k]'(by omega)) := List.getElem?_eq_getElem (by omega)
        have hsk : s[k]'(by omega) = z[k]'(by omega) := by
          have := hP k _ _ hfk hzk
          rw [if_neg (by omega), List.getElem?_eq_getElem (by omega)] at this
          exact Option.some.inj this
        rw [hsk]
        by_cases hlt : Fl.lt f[k] (z[k]'(by omega)) = true
        · rw [if_pos hlt, Outcome.set_of_lt (by omega), Outcome.sat_ok]
          refine ⟨by simpa using hl, fun i a b ha hb => ?_⟩
          by_cases hik : i = k
          · subst hik
            rw [List.getElem?_set_self (by omega)]
            rw [hfk] at ha; rw [hzk] at hb; cases ha; cases hb
            rw [if_pos ⟨by omega, hlt⟩]
          · rw [List.getElem?_set_ne (Ne.symm hik), hP i a b ha hb]
            congr 1
            have : (i < k + 1) ↔ (i < k) := by omega
            simp only [this]
        · rw [if_neg hlt, Outcome.sat_ok]
          refine ⟨hl, fun i a b ha hb => ?_⟩
          rw [hP i a b ha hb]
          congr 1
          by_cases hik : i = k
          · subst hik
            rw [hfk] at ha; rw [hzk] at hb; cases ha; cases hb
            rw [if_neg (fun h => hlt h.2), if_neg (fun h => hlt h.2)]
          · have : (i < k + 1) ↔ (i < k) := by omega
            simp only [this])
    obtain ⟨z', hz'⟩ := key.isOk
    rw [hz', Outcome.sat_ok] at key
    refine ⟨z', hz', key.1, fun i a b ha hb => ?_⟩
    rw [key.2 i a b ha hb]
    have : i < f.length := (List.getElem?_eq_some_iff.mp ha).1
    simp [this]

/-- **C26.** What one call returns and what it leaves in `get_z()`: the reference point is first lowered to the inner
fitness where that is smaller (only with `adapt_ideal`), and the value is the decomposition of the inner fitness with
respect to the reference point after the update. -/
theorem C26_value (d : Decomp K) {x f z : List (Fl K)} (hx : d.inner.fitness x = .ok f)
    (hz : z.length = d.inner.prob.nf) :
    ∃ z', d.fitness x z = (Verif.Dec.decomposeObjectives d.op d.sq d.eps d.theta f d.weight z' d.method, z') ∧
      z'.length = z.length ∧ ∀ (i : Nat) (a b : Fl K), f[i]? = some a → z[i]? = some b →
        z'[i]? = some (if d.adapt && Fl.lt a b then a else b) := by
  obtain ⟨z', h1, h2, h3⟩ := adaptZ_spec d.adapt f z (by rw [inner_fitness_length hx, hz])
  refine ⟨z', ?_, h2, h3⟩
  unfold Decomp.fitness
  rw [hx]; simp only; rw [h1]

/-- **C26.** A failing evaluation of the inner problem leaves the reference point as it is. -/
theorem C26_throws (d : Decomp K) {x z : List (Fl K)} {e : Exn} (hx : d.inner.fitness x = .throws e) :
    d.fitness x z = (.throws e, z) := by
  unfold Decomp.fitness
  rw [hx]

/-- **C26.** Without `adapt_ideal` no sequence of calls changes the reference point. -/
theorem C26_fixed (d : Decomp K) (ha : d.adapt = false) (xs : List (List (Fl K))) (z : List (Fl K)) :
    d.calls xs z = z := by
  induction xs generalizing z with
  | nil => rfl
  | cons x xs ih =>
    have : (d.fitness x z).2 = z := by
      unfold Decomp.fitness
      cases d.inner.fitness x with
      | ok f => simp [adaptZ, ha]
      | _ => rfl
    simp only [Decomp.calls]
    rw [this]; exact ih z

/-- **C26.** With `adapt_ideal`, after any sequence of calls (some may throw) every component of the reference point is
the least among its initial value and the values computed for that objective: it is not above any of them, it is one
of them, and NaN values are ignored. -/
theorem C26_calls (d : Decomp K) (ha : d.adapt = true) (xs : List (List (Fl K))) (z : List (Fl K))
    (hz : z.length = d.inner.prob.nf) (hnan : Fl.nan ∉ z) :
    (d.calls xs z).length = z.length ∧
    ∀ (i : Nat) (b : Fl K), z[i]? = some b → ∃ v, (d.calls xs z)[i]? = some v ∧ v ≠ .nan ∧
      v ≤ b ∧ (∀ x ∈ xs, ∀ f a, d.inner.fitness x = .ok f → f[i]? = some a → a = .nan ∨ v ≤ a) ∧
      (v = b ∨ ∃ x ∈ xs, ∃ f, d.inner.fitness x = .ok f ∧ f[i]? = some v) := by
  induction xs generalizing z with
  | nil =>
    refine ⟨rfl, fun i b hb => ⟨b, hb, ?_, le_refl _, by simp, Or.inl rfl⟩⟩
    rintro rfl; exact hnan (List.mem_of_getElem? hb)
  | cons x xs ih =>
    simp only [Decomp.calls]
    by_cases hx : ∃ f, d.inner.fitness x = .ok f
    · obtain ⟨f, hf⟩ := hx
      obtain ⟨z', e, hl, hget⟩ := C26_value d hf hz
      rw [e]
      simp only
      have hfl := inner_fitness_length hf
      have hnan' : Fl.nan ∉ z' := by
        intro hm
        obtain ⟨i, hi⟩ := List.getElem?_of_mem hm
        have hil : i < z.length := by rw [← hl]; exact (List.getElem?_eq_some_iff.mp hi).1
        have h1 := hget i _ _ (List.getElem?_eq_getElem (by omega : i < f.length)) (List.getElem?_eq_getElem hil)
        rw [hi, Option.some.injEq] at h1
        split at h1
        · rename_i hlt
          rw [← h1, ha, Fl.lt_nan_left] at hlt
          simp at hlt
        · exact hnan (h1 ▸ List.getElem_mem hil)
      obtain ⟨hlen, hP⟩ := ih z' (by rw [hl, hz]) hnan'
      refine ⟨by rw [hlen, hl], fun i b hb => ?_⟩
      have hil : i < z.length := (List.getElem?_eq_some_iff.mp hb).1
      have hfi : f[i]? = some (f[i]'(by omega)) := List.getElem?_eq_getElem (by omega)
      have h1 := hget i _ _ hfi hb
      generalize hfv : f[i]'(by omega) = fi at *
      rw [ha, Bool.true_and] at h1
      have hbn : b ≠ .nan := fun h => hnan (h ▸ List.mem_of_getElem? hb)
      obtain ⟨v, hv, hvn, hle, hall, hor⟩ := hP i _ h1
      refine ⟨v, hv, hvn, ?_, ?_, ?_⟩
      · refine le_trans hle ?_
        split
        · rename_i hlt
          have hn : fi ≠ .nan := by rintro rfl; rw [Fl.lt_nan_left] at hlt; cases hlt
          exact ((Fl.lt_iff hn hbn).mp hlt).le
        · exact le_refl _
      · intro x' hx' f' a hf' ha'
        rcases List.mem_cons.mp hx' with rfl | hx'
        · rw [hf] at hf'; cases hf'
          rw [hfi] at ha'; cases ha'
          by_cases hn : fi = .nan
          · exact Or.inl hn
          · right
            refine le_trans hle ?_
            split
            · exact le_refl _
            · rename_i hlt
              rw [Fl.lt_iff hn hbn] at hlt
              exact not_lt.mp hlt
        · exact hall x' hx' f' a hf' ha'
      · rcases hor with hor | ⟨x', hx', f', hf', ha'⟩
        · split at hor
          · exact Or.inr ⟨x, List.mem_cons_self, f, hf, by rw [hfi, hor]⟩
          · exact Or.inl hor
        · exact Or.inr ⟨x', List.mem_cons_of_mem _ hx', f', hf', ha'⟩
    · have : (d.fitness x z).2 = z := by
        unfold Decomp.fitness
        cases h : d.inner.fitness x with
        | ok f => exact absurd ⟨f, h⟩ hx
        | _ => rfl
      rw [this]
      obtain ⟨hlen, hP⟩ := ih z hz hnan
      refine ⟨hlen, fun i b hb => ?_⟩
      obtain ⟨v, hv, hvn, hle, hall, hor⟩ := hP i b hb
      refine ⟨v, hv, hvn, hle, ?_, ?_⟩
      · intro x' hx' f' a hf' ha'
        rcases List.mem_cons.mp hx' with rfl | hx'
        · exact absurd ⟨f', hf'⟩ hx
        · exact hall x' hx' f' a hf' ha'
      · rcases hor with hor | ⟨x', hx', h⟩
        · exact Or.inl hor
        · exact Or.inr ⟨x', List.mem_cons_of_mem _ hx', h⟩

end

/-! ## C78: the constructor -/

section
variable {K : Type} [Field K] [LinearOrder K] [IsStrictOrderedRing K]

omit [Field K] [LinearOrder K] [IsStrictOrderedRing K] in
theorem all_finite_iff (l : List (Fl K)) : l.any (fun a => !a.isFinite) = false ↔ ∃ ks : List K, l = ks.map .fin := by
  constructor
  · intro h
    induction l with
    | nil => exact ⟨[], rfl⟩
    | cons a l ih =>
      rw [List.any_cons, Bool.or_eq_false_iff] at h
      obtain ⟨ks, hk⟩ := ih h.2
      cases a with
      | fin k => exact ⟨k :: ks, by rw [hk]; rfl⟩
      | _ => simp [Fl.isFinite] at h
  · rintro ⟨ks, rfl⟩
    simp [Fl.isFinite]

theorem foldl_add_fin (ks : List K) (a : K) :
    (ks.map Fl.fin).foldl (Fl.exact K).add (.fin a) = .fin (a + ks.sum) := by
  induction ks generalizing a with
  | nil => simp
  | cons k ks ih =>
    rw [List.map_cons, List.foldl_cons]
    change (ks.map Fl.fin).foldl (Fl.exact K).add (.fin (a + k)) = _
    rw [ih, List.sum_cons, add_assoc]

/-- **C78.** The constructor of `decompose` accepts exactly: at least two objectives, no constraints, one of the three
method names, a weight and a reference point of the right size with finite entries, the weights non-negative and with
sum within `tol` (1e-8) of one. Everything else throws `std::invalid_argument`. Sum computed exactly. -/
theorem C78_decompose_ctor (tol : K) (p : Problem K) (w z : List (Fl K)) (method : String) :
    let good := 2 ≤ p.nobj ∧ p.nec = 0 ∧ p.nic = 0 ∧
      (method = "weighted" ∨ method = "tchebycheff" ∨ method = "bi") ∧
      ∃ ws zs : List K, w = ws.map .fin ∧ z = zs.map .fin ∧ ws.length = p.nobj ∧ zs.length = p.nobj ∧
        (∀ a ∈ ws, 0 ≤ a) ∧ |ws.sum - 1| ≤ tol
    (decomposeCtor (Fl.exact K) (.fin tol) p w z method = .ok () ↔ good) ∧
    (decomposeCtor (Fl.exact K) (.fin tol) p w z method = .throws .invalidArgument ↔ ¬ good) := by
  intro good
  have key : (decomposeCtor (Fl.exact K) (.fin tol) p w z method = .ok () ∧ good) ∨
      (decomposeCtor (Fl.exact K) (.fin tol) p w z method = .throws .invalidArgument ∧ ¬ good) := by
    unfold decomposeCtor
    by_cases h1 : p.nobj < 2
    · right; rw [if_pos h1]; exact ⟨rfl, fun h => by have := h.1; omega⟩
    rw [if_neg h1]
    by_cases h2 : p.nec + p.nic ≠ 0
    · right; rw [if_pos h2]; exact ⟨rfl, fun h => by have := h.2.1; have := h.2.2.1; omega⟩
    rw [if_neg h2]
    by_cases h3 : method ≠ "weighted" ∧ method ≠ "tchebycheff" ∧ method ≠ "bi"
    · right; rw [if_pos h3]
      refine ⟨rfl, fun h => ?_⟩
      rcases h.2.2.2.1 with h | h | h
      · exact h3.1 h
      · exact h3.2.1 h
      · exact h3.2.2 h
    rw [if_neg h3]
    by_cases h4 : w.length ≠ p.nobj
    · right; rw [if_pos h4]
      refine ⟨rfl, fun h => ?_⟩
      obtain ⟨ws, zs, e1, -, e2, -⟩ := h.2.2.2.2
      rw [e1] at h4; simp [e2] at h4
    rw [if_neg h4]
    by_cases h5 : w.any (fun a => !a.isFinite) = true
    · right; rw [if_pos h5]
      refine ⟨rfl, fun h => ?_⟩
      obtain ⟨ws, zs, e1, -⟩ := h.2.2.2.2
      rw [(all_finite_iff w).mpr ⟨ws, e1⟩] at h5; cases h5
    rw [if_neg h5]
    by_cases h6 : z.length ≠ p.nobj
    · right; rw [if_pos h6]
      refine ⟨rfl, fun h => ?_⟩
      obtain ⟨ws, zs, -, e1, -, e2, -⟩ := h.2.2.2.2
      rw [e1] at h6; simp [e2] at h6
    rw [if_neg h6]
    by_cases h7 : z.any (fun a => !a.isFinite) = true
    · right; rw [if_pos h7]
      refine ⟨rfl, fun h => ?_⟩
      obtain ⟨ws, zs, -, e1, -⟩ := h.2.2.2.2
      rw [(all_finite_iff z).mpr ⟨zs, e1⟩] at h7; cases h7
    rw [if_neg h7]
    obtain ⟨ws, rfl⟩ := (all_finite_iff w).mp (by simpa using h5)
    obtain ⟨zs, rfl⟩ := (all_finite_iff z).mp (by simpa using h7)
    have hinj : Function.Injective (Fl.fin : K → Fl K) := fun a b h => by injection h
    have hsum : notNormalised (Fl.exact K) (.fin tol) (ws.map .fin) = true ↔ tol < |ws.sum - 1| := by
      unfold notNormalised
      change Fl.gt (Fl.abs (Fl.sub ((ws.map Fl.fin).foldl (Fl.exact K).add (.fin 0)) (.fin 1))) (.fin tol) = true ↔ _
      rw [foldl_add_fin, zero_add]
      have : Fl.abs (Fl.sub (Fl.fin ws.sum) (.fin 1)) = Fl.fin |ws.sum - 1| := by
        have e : Fl.sub (Fl.fin ws.sum) (.fin 1) = Fl.fin (ws.sum - 1) := by simp [Fl.sub, Fl.neg, Fl.add, sub_eq_add_neg]
        rw [e]
        simp only [Fl.abs]
        congr 1
        by_cases hc : ws.sum - 1 < 0
        · rw [if_pos hc, abs_of_neg hc]
        · rw [if_neg hc, abs_of_nonneg (not_lt.mp hc)]
      rw [this]
      unfold Fl.gt
      rw [Fl.lt_iff (by simp) (by simp)]; rfl
    have hneg : (ws.map Fl.fin).any (fun a => Fl.lt a (Fl.exact K).zero) = true ↔ ∃ a ∈ ws, a < 0 := by
      rw [List.any_eq_true]
      constructor
      · rintro ⟨a, ha, hl⟩
        obtain ⟨k, hk, rfl⟩ := List.mem_map.mp ha
        exact ⟨k, hk, (Fl.lt_iff (by simp) (by simp [Fl.exact])).mp hl⟩
      · rintro ⟨k, hk, hl⟩
        exact ⟨.fin k, List.mem_map.mpr ⟨k, hk, rfl⟩, (Fl.lt_iff (by simp) (by simp [Fl.exact])).mpr hl⟩
    by_cases h8 : notNormalised (Fl.exact K) (.fin tol) (ws.map .fin) = true
    · right; rw [if_pos h8]
      refine ⟨rfl, fun h => ?_⟩
      obtain ⟨ws', zs', e1, -, -, -, -, e2⟩ := h.2.2.2.2
      rw [← List.map_injective_iff.mpr hinj e1] at e2
      exact absurd (hsum.mp h8) (not_lt.mpr e2)
    rw [if_neg h8]
    by_cases h9 : (ws.map Fl.fin).any (fun a => Fl.lt a (Fl.exact K).zero) = true
    · right; rw [if_pos h9]
      refine ⟨rfl, fun h => ?_⟩
      obtain ⟨ws', zs', e1, -, -, -, e2, -⟩ := h.2.2.2.2
      rw [← List.map_injective_iff.mpr hinj e1] at e2
      obtain ⟨a, ha, hl⟩ := hneg.mp h9
      exact absurd hl (not_lt.mpr (e2 a ha))
    rw [if_neg h9]
    left
    refine ⟨rfl, by omega, by omega, by omega, ?_, ws, zs, rfl, rfl, by simpa using h4, by simpa using h6, ?_, ?_⟩
    · by_contra hc
      push Not at hc
      exact h3 hc
    · intro a ha
      by_contra hc
      exact h9 (hneg.mpr ⟨a, ha, not_le.mp hc⟩)
    · by_contra hc
      exact h8 (hsum.mpr (not_le.mp hc))
  rcases key with ⟨h1, h2⟩ | ⟨h1, h2⟩
  · rw [h1]; simp [h2]
  · rw [h1]; simp [h2]

end

/-! ## C27: concurrent calls -/

section
variable {K : Type} [Field K] [LinearOrder K]

/-- How far a call is after `n` of its steps when nobody writes the reference point. -/
def callAfter (d : Decomp K) (z f : List (Fl K)) (n : Nat) : Pc K :=
  if n ≤ z.length then .read (z.take n)
  else .done (Verif.Dec.decomposeObjectives d.op d.sq d.eps d.theta f d.weight z d.method)

theorem callAfter_step (d : Decomp K) (z f : List (Fl K)) (n : Nat) :
    Caller.step d z { f := f, pc := callAfter d z f n } = (z, { f := f, pc := callAfter d z f (n + 1) }) := by
  unfold callAfter
  by_cases h : n ≤ z.length
  · rw [if_pos h]
    unfold Caller.step
    simp only
    have hlen : (z.take n).length = n := by simp [h]
    rw [hlen]
    by_cases h2 : n + 1 ≤ z.length
    · rw [List.getElem?_eq_getElem (by omega)]
      simp only
      rw [if_pos h2, List.take_append_getElem]
    · rw [List.getElem?_eq_none (by omega)]
      simp only
      rw [if_neg h2, List.take_of_length_le (by omega)]
  · rw [if_neg h, if_neg (by omega)]
    rfl

/-- **C27 (part).** Without `adapt_ideal`: for every number of concurrent calls and every interleaving of their memory
accesses the reference point is unchanged, and each call that got at least `nobj + 1` steps has returned the value that it
returns when executed alone. Missing: `adapt_ideal`, for which the property is false, see `C27_lost_update`. -/
theorem C27_concurrent_partial (d : Decomp K) (ha : d.adapt = false) (z : List (Fl K)) (fs : List (List (Fl K)))
    (sched : List Nat) :
    let s := runCallers d sched (z, fs.map (Caller.start d))
    s.1 = z ∧ s.2.length = fs.length ∧
    ∀ (i : Nat) (f : List (Fl K)), fs[i]? = some f → ∃ pc, s.2[i]? = some { f := f, pc := pc } ∧
      (z.length + 1 ≤ sched.count i →
        pc = .done (Verif.Dec.decomposeObjectives d.op d.sq d.eps d.theta f d.weight z d.method)) := by
  intro s
  have gen : ∀ (sched : List Nat) (n : Nat → Nat),
      runCallers d sched (z, fs.mapIdx fun i f => { f := f, pc := callAfter d z f (n i) }) =
        (z, fs.mapIdx fun i f => { f := f, pc := callAfter d z f (n i + sched.count i) }) := by
    intro sched
    induction sched with
    | nil => intro n; simp [runCallers]
    | cons j js ih =>
      intro n
      simp only [runCallers]
      rw [List.getElem?_mapIdx]
      cases hj : fs[j]? with
      | none =>
        simp only [Option.map_none]
        rw [ih n]
        congr 1
        apply List.ext_getElem?
        intro i
        rw [List.getElem?_mapIdx, List.getElem?_mapIdx]
        by_cases hij : i = j
        · subst hij; rw [hj]; rfl
        · rw [List.count_cons_of_ne (Ne.symm hij)]
      | some f =>
        simp only [Option.map_some]
        rw [callAfter_step]
        simp only
        have : (fs.mapIdx fun i f => ({ f := f, pc := callAfter d z f (n i) } : Caller K)).set j
            { f := f, pc := callAfter d z f (n j + 1) } =
            fs.mapIdx fun i f => ({ f := f, pc := callAfter d z f ((fun k => if k = j then n j + 1 else n k) i) } : Caller K) := by
          apply List.ext_getElem?
          intro i
          rw [List.getElem?_set, List.getElem?_mapIdx, List.getElem?_mapIdx]
          by_cases hij : j = i
          · subst hij
            rw [if_pos rfl, hj]
            have : j < fs.length := (List.getElem?_eq_some_iff.mp hj).1
            simp [this]
          · rw [if_neg hij]
            simp [Ne.symm hij]
        rw [this, ih]
        congr 1
        apply List.ext_getElem?
        intro i
        rw [List.getElem?_mapIdx, List.getElem?_mapIdx]
        by_cases hij : i = j
        · subst hij
          simp only [if_true, List.count_cons_self]
          congr 1; funext f; congr 2; omega
        · rw [List.count_cons_of_ne (Ne.symm hij)]
          simp [hij]
  have h0 : fs.map (Caller.start d) = fs.mapIdx fun i f => ({ f := f, pc := callAfter d z f ((fun _ => 0) i) } : Caller K) := by
    apply List.ext_getElem?
    intro i
    rw [List.getElem?_map, List.getElem?_mapIdx]
    unfold Caller.start callAfter
    simp [ha]
  have hs : s = (z, fs.mapIdx fun i f => { f := f, pc := callAfter d z f (0 + sched.count i) }) := by
    rw [← gen sched (fun _ => 0), ← h0]
  rw [hs]
  refine ⟨rfl, by simp, fun i f hf => ⟨callAfter d z f (0 + sched.count i), ?_, fun hc => ?_⟩⟩
  · simp only [List.getElem?_mapIdx, hf, Option.map_some]
  · unfold callAfter; rw [if_neg (by omega)]

end

/-- The object used in the examples: two objectives, weighted decomposition. -/
def decDemo (adapt : Bool) : Decomp ℚ where
  op := Fl.exact ℚ
  sq := id
  eps := .fin 0
  theta := .fin 5
  inner :=
    { prob := { lb := [.fin 0], ub := [.fin 9], nix := 0, nobj := 2, nec := 0, nic := 0, gsDim := 2, hsDim := [1, 1], cTol := [] }
      user := fun x => .ok (x ++ x)
      ubatch := fun _ => .error .runtimeError }
  weight := [.fin (1/2), .fin (1/2)]
  method := "weighted"
  adapt := adapt

/-- C27 is false with `adapt_ideal`: two calls, whose inner fitnesses are (1, 5) and (3, 5), are interleaved so that both
return and the reference point ends at (3, 5), although (1, 5) was computed; one after the other, in any order, they
leave (1, 5). The object reports the thread safety of the inner problem nevertheless. -/
theorem C27_lost_update :
    let f1 : List (Fl ℚ) := [.fin 1, .fin 5]
    let f2 : List (Fl ℚ) := [.fin 3, .fin 5]
    let z : List (Fl ℚ) := [.fin 7, .fin 7]
    (∃ sched : List Nat, ∃ r1 r2, runCallers (decDemo true) sched (z, [Caller.start (decDemo true) f1, Caller.start (decDemo true) f2]) =
      ([.fin 3, .fin 5], [⟨f1, .done (.ok r1)⟩, ⟨f2, .done (.ok r2)⟩])) ∧
    (adaptZ true f1 z >>= adaptZ true f2) = .ok [.fin 1, .fin 5] ∧
    (adaptZ true f2 z >>= adaptZ true f1) = .ok [.fin 1, .fin 5] ∧
    ∀ s, decomposeSafety s = s := by
  refine ⟨⟨[0, 1, 0, 1, 0, 0, 0, 0, 0, 0, 1, 1, 1, 1, 1], [.fin 3], [.fin 4], ?_⟩, by decide +kernel, by decide +kernel, fun _ => rfl⟩
  decide +kernel

example : (decDemo true).calls [[.fin 5], [.fin 2], [.fin 3, .fin 3], [.fin 4]] [.fin 7, .fin 1] = [.fin 2, .fin 1] := by decide +kernel

example : ((decDemo true).fitness [.fin 5] [.fin 7, .fin 1]) = (.ok [.fin 5], [.fin 5, .fin 1]) := by decide +kernel

example : decomposeCtor (Fl.exact ℚ) (.fin (1/100000000)) (decDemo true).inner.prob [.fin (1/3), .fin (2/3)] [.fin 0, .fin 0] "bi" = .ok () ∧
    decomposeCtor (Fl.exact ℚ) (.fin (1/100000000)) (decDemo true).inner.prob [.fin (4/3), .fin (-1/3)] [.fin 0, .fin 0] "bi" =
      .throws .invalidArgument := by decide +kernel

end Verif.Props
