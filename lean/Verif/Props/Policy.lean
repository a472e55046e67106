import Verif.Model.Policy
import Verif.Base.Check
import Verif.Props.Constrained
import Verif.Props.Crowding
import Mathlib.Data.Rat.Floor

/-!
# C29, C30, C31, C36: migration policies
-/

set_option autoImplicit false

namespace Verif.Props

open Verif Outcome Prob Con MO Pol

variable {K : Type}

/-! ## C36: the wrappers -/

/-- IDs, decision vectors and fitness vectors in equal numbers, and of the announced dimensions -/
structure GroupOk (g : Inds K) (nx nf : Nat) : Prop where
  dvs : g.dvs.length = g.ids.length
  fvs : g.fvs.length = g.ids.length
  dvLen : ∀ x ∈ g.dvs, x.length = nx
  fvLen : ∀ f ∈ g.fvs, f.length = nf

/-- dimensions a policy can be called with -/
structure DimsOk (nx nix nobj nec nic : Nat) (tol : List (Fl K)) : Prop where
  nxPos : 0 < nx
  nixLe : nix ≤ nx
  nobjPos : 0 < nobj
  nobjMax : nobj ≤ (2 ^ 64 - 1) / 3
  necMax : nec ≤ (2 ^ 64 - 1) / 3
  nicMax : nic ≤ (2 ^ 64 - 1) / 3
  tolLen : tol.length = nec + nic

theorem sameSizes_chk (g : Inds K) : Chk (sameSizes g) (g.dvs.length = g.ids.length ∧ g.fvs.length = g.ids.length) := by
  unfold sameSizes
  refine (Chk.ite_throw (fun _ => Chk.pass)).congr ?_
  constructor
  · rintro ⟨h, _⟩; omega
  · intro h; exact ⟨by omega, trivial⟩

theorem allLen_chk (vs : List (List (Fl K))) (n : Nat) : Chk (allLen vs n) (∀ v ∈ vs, v.length = n) := by
  unfold allLen
  refine (Chk.ite_throw (fun _ => Chk.pass)).congr ?_
  simp

theorem checkDims_chk (nx nix nobj nec nic : Nat) (tol : List (Fl K)) :
    Chk (checkDims nx nix nobj nec nic tol) (DimsOk nx nix nobj nec nic tol) := by
  unfold checkDims
  refine (Chk.ite_throw fun _ => Chk.ite_throw fun _ => Chk.ite_throw fun _ => Chk.ite_throw fun _ =>
    Chk.ite_throw fun _ => Chk.ite_throw fun _ => Chk.ite_throw fun _ => Chk.pass).congr ?_
  unfold sizeMax w64
  constructor
  · rintro ⟨h1, h2, h3, h4, h5, h6, h7, _⟩
    have : (nec + nic) % 2 ^ 64 = nec + nic := Nat.mod_eq_of_lt (by omega)
    exact ⟨by omega, by omega, by omega, by omega, by omega, by omega, by omega⟩
  · rintro ⟨h1, h2, h3, h4, h5, h6, h7⟩
    have : (nec + nic) % 2 ^ 64 = nec + nic := Nat.mod_eq_of_lt (by omega)
    exact ⟨by omega, by omega, by omega, by omega, by omega, by omega, by omega, trivial⟩

theorem w64_nf {nx nix nobj nec nic : Nat} {tol : List (Fl K)} (h : DimsOk nx nix nobj nec nic tol) :
    w64 (nobj + nec + nic) = nobj + nec + nic := by
  unfold w64
  have := h.nobjMax; have := h.necMax; have := h.nicMax
  exact Nat.mod_eq_of_lt (by omega)

theorem verifyOutput_chk (r : Inds K) (nx nf : Nat) : Chk (verifyOutput r nx nf) (GroupOk r nx nf) := by
  unfold verifyOutput
  refine ((sameSizes_chk r).seq fun _ => (allLen_chk _ _).seq fun _ => allLen_chk _ _).congr ?_
  constructor
  · rintro ⟨⟨h1, h2⟩, h3, h4⟩; exact ⟨h1, h2, h3, h4⟩
  · rintro ⟨h1, h2, h3, h4⟩; exact ⟨⟨h1, h2⟩, h3, h4⟩

theorem verifyReplaceInput_chk (inds : Inds K) (nx nix nobj nec nic : Nat) (tol : List (Fl K)) (mig : Inds K) :
    Chk (verifyReplaceInput inds nx nix nobj nec nic tol mig)
      (DimsOk nx nix nobj nec nic tol ∧ GroupOk inds nx (nobj + nec + nic) ∧ GroupOk mig nx (nobj + nec + nic)) := by
  unfold verifyReplaceInput
  refine ((sameSizes_chk inds).seq fun _ => (sameSizes_chk mig).seq fun _ => (checkDims_chk _ _ _ _ _ _).seq fun _ =>
    (allLen_chk _ _).seq fun _ => (allLen_chk _ _).seq fun _ => (allLen_chk _ _).seq fun _ =>
    (allLen_chk _ _)).congr ?_
  constructor
  · rintro ⟨⟨a1, a2⟩, ⟨b1, b2⟩, hd, c1, c2, c3, c4⟩
    rw [w64_nf hd] at c2 c4
    exact ⟨hd, ⟨a1, a2, c1, c2⟩, ⟨b1, b2, c3, c4⟩⟩
  · rintro ⟨hd, ⟨a1, a2, c1, c2⟩, ⟨b1, b2, c3, c4⟩⟩
    rw [w64_nf hd]
    exact ⟨⟨a1, a2⟩, ⟨b1, b2⟩, hd, c1, c2, c3, c4⟩

theorem verifySelectInput_chk (inds : Inds K) (nx nix nobj nec nic : Nat) (tol : List (Fl K)) :
    Chk (verifySelectInput inds nx nix nobj nec nic tol)
      (DimsOk nx nix nobj nec nic tol ∧ GroupOk inds nx (nobj + nec + nic)) := by
  unfold verifySelectInput
  refine ((sameSizes_chk inds).seq fun _ => (checkDims_chk _ _ _ _ _ _).seq fun _ =>
    (allLen_chk _ _).seq fun _ => (allLen_chk _ _)).congr ?_
  constructor
  · rintro ⟨⟨a1, a2⟩, hd, c1, c2⟩
    rw [w64_nf hd] at c2
    exact ⟨hd, ⟨a1, a2, c1, c2⟩⟩
  · rintro ⟨hd, ⟨a1, a2, c1, c2⟩⟩
    rw [w64_nf hd]
    exact ⟨⟨a1, a2⟩, hd, c1, c2⟩

/-- C36 (replacement). `r_policy::replace` returns `r` exactly if the dimensions are sane, both groups are well-formed,
the user policy returns `r` and `r` is well-formed. On malformed input the user policy is not consulted at all: the call
throws whatever that policy would do. A malformed answer makes it throw, too. -/
theorem C36_replace (user : Inds K → Nat → Nat → Nat → Nat → Nat → List (Fl K) → Inds K → Outcome (Inds K))
    (inds : Inds K) (nx nix nobj nec nic : Nat) (tol : List (Fl K)) (mig : Inds K) :
    let InOk := DimsOk nx nix nobj nec nic tol ∧ GroupOk inds nx (nobj + nec + nic) ∧ GroupOk mig nx (nobj + nec + nic)
    (∀ r, rPolicyReplace user inds nx nix nobj nec nic tol mig = .ok r ↔
      InOk ∧ user inds nx nix nobj nec nic tol mig = .ok r ∧ GroupOk r nx (nobj + nec + nic)) ∧
    (¬ InOk → rPolicyReplace user inds nx nix nobj nec nic tol mig = .throws .invalidArgument) ∧
    (InOk → ∀ r, user inds nx nix nobj nec nic tol mig = .ok r → ¬ GroupOk r nx (nobj + nec + nic) →
      rPolicyReplace user inds nx nix nobj nec nic tol mig = .throws .invalidArgument) ∧
    (InOk → ∀ e, user inds nx nix nobj nec nic tol mig = .throws e →
      rPolicyReplace user inds nx nix nobj nec nic tol mig = .throws e) := by
  intro InOk
  have hin := verifyReplaceInput_chk inds nx nix nobj nec nic tol mig
  unfold rPolicyReplace
  rcases hin with ⟨h1, h2⟩ | ⟨h1, h2⟩
  · rw [h1]
    simp only [bind_ok]
    rw [w64_nf h2.1]
    refine ⟨?_, fun h => absurd h2 h, ?_, ?_⟩
    · intro r
      cases hu : user inds nx nix nobj nec nic tol mig with
      | ok r' =>
        simp only [bind_ok]
        rcases verifyOutput_chk r' nx (nobj + nec + nic) with ⟨h3, h4⟩ | ⟨h3, h4⟩
        · rw [h3]
          simp only [bind_ok, ok.injEq]
          constructor
          · rintro rfl; exact ⟨h2, rfl, h4⟩
          · exact fun h => h.2.1
        · rw [h3]
          simp only [bind_throws, reduceCtorEq, false_iff, ok.injEq]
          rintro ⟨_, rfl, h⟩; exact h4 h
      | throws e => simp
      | ub => simp
      | nofuel => simp
    · intro _ r hu hr
      rw [hu]
      simp only [bind_ok]
      rw [(verifyOutput_chk r nx (nobj + nec + nic)).throws_iff.mpr hr]; rfl
    · intro _ e hu
      rw [hu]; rfl
  · rw [h1]
    refine ⟨?_, fun _ => rfl, fun h => absurd h h2, fun h => absurd h h2⟩
    intro r
    simp only [bind_throws, reduceCtorEq, false_iff]
    exact fun h => h2 h.1

/-- C36 (selection). The same for `s_policy::select`. -/
theorem C36_select (user : Inds K → Nat → Nat → Nat → Nat → Nat → List (Fl K) → Outcome (Inds K))
    (inds : Inds K) (nx nix nobj nec nic : Nat) (tol : List (Fl K)) :
    let InOk := DimsOk nx nix nobj nec nic tol ∧ GroupOk inds nx (nobj + nec + nic)
    (∀ r, sPolicySelect user inds nx nix nobj nec nic tol = .ok r ↔
      InOk ∧ user inds nx nix nobj nec nic tol = .ok r ∧ GroupOk r nx (nobj + nec + nic)) ∧
    (¬ InOk → sPolicySelect user inds nx nix nobj nec nic tol = .throws .invalidArgument) ∧
    (InOk → ∀ r, user inds nx nix nobj nec nic tol = .ok r → ¬ GroupOk r nx (nobj + nec + nic) →
      sPolicySelect user inds nx nix nobj nec nic tol = .throws .invalidArgument) ∧
    (InOk → ∀ e, user inds nx nix nobj nec nic tol = .throws e →
      sPolicySelect user inds nx nix nobj nec nic tol = .throws e) := by
  intro InOk
  have hin := verifySelectInput_chk inds nx nix nobj nec nic tol
  unfold sPolicySelect
  rcases hin with ⟨h1, h2⟩ | ⟨h1, h2⟩
  · rw [h1]
    simp only [bind_ok]
    rw [w64_nf h2.1]
    refine ⟨?_, fun h => absurd h2 h, ?_, ?_⟩
    · intro r
      cases hu : user inds nx nix nobj nec nic tol with
      | ok r' =>
        simp only [bind_ok]
        rcases verifyOutput_chk r' nx (nobj + nec + nic) with ⟨h3, h4⟩ | ⟨h3, h4⟩
        · rw [h3]
          simp only [bind_ok, ok.injEq]
          constructor
          · rintro rfl; exact ⟨h2, rfl, h4⟩
          · exact fun h => h.2.1
        · rw [h3]
          simp only [bind_throws, reduceCtorEq, false_iff, ok.injEq]
          rintro ⟨_, rfl, h⟩; exact h4 h
      | throws e => simp
      | ub => simp
      | nofuel => simp
    · intro _ r hu hr
      rw [hu]
      simp only [bind_ok]
      rw [(verifyOutput_chk r nx (nobj + nec + nic)).throws_iff.mpr hr]; rfl
    · intro _ e hu
      rw [hu]; rfl
  · rw [h1]
    refine ⟨?_, fun _ => rfl, fun h => absurd h h2, fun h => absurd h h2⟩
    intro r
    simp only [bind_throws, reduceCtorEq, false_iff]
    exact fun h => h2 h.1

/-- a well-formed group of two individuals of dimension 1 -/
def demoGroup : Inds ℚ := ⟨[7, 8], [[.fin 0], [.fin 1]], [[.fin 3], [.nan]]⟩

example : rPolicyReplace (fun g _ _ _ _ _ _ _ => .ok g) demoGroup 1 0 1 0 0 [] ⟨[], [], []⟩ = .ok demoGroup := by
  decide +kernel

example : rPolicyReplace (fun g _ _ _ _ _ _ _ => .ok { g with ids := [] }) demoGroup 1 0 1 0 0 [] ⟨[], [], []⟩ =
    .throws .invalidArgument := by decide +kernel

/-! ## C31: rates -/

section
variable [Field K] [LinearOrder K]

/-- C31 (construction). A fractional rate is accepted exactly if it is a finite number in `[0, 1]`; an absolute one
exactly if it fits an unsigned 64-bit integer. -/
theorem C31_construct (x : Fl K) (n : ℤ) :
    (ctorFrac x = .ok (.frac x) ↔ ∃ k : K, x = .fin k ∧ 0 ≤ k ∧ k ≤ 1) ∧
    ((¬ ∃ k : K, x = .fin k ∧ 0 ≤ k ∧ k ≤ 1) → ctorFrac x = .throws .invalidArgument) ∧
    ((ctorAbs n : Outcome (Rate K)) = .ok (.abs n.toNat) ↔ 0 ≤ n ∧ n < 2 ^ 64) ∧
    (¬ (0 ≤ n ∧ n < 2 ^ 64) → (ctorAbs n : Outcome (Rate K)) = .throws .badCast) := by
  refine ⟨?_, ?_, ?_, ?_⟩
  · cases x <;> simp [ctorFrac, Fl.isFinite, Fl.lt, Fl.gt]
  · cases x <;> simp [ctorFrac, Fl.isFinite, Fl.lt, Fl.gt]
  · unfold ctorAbs
    split <;> simp <;> omega
  · intro h
    unfold ctorAbs
    rw [if_pos (by omega)]

variable [FloorRing K]

/-- C31 (bound). Whatever the arithmetic, the number of individuals to migrate never exceeds the population size; an
absolute rate that would exceed it is rejected, a smaller one is used as it is. -/
theorem C31_bound (op : Fl.Ops K) (toD : Nat → Fl K) (size : Nat) (rate : Rate K) :
    (∀ n, candidate op toD size rate = .ok n → n ≤ size) ∧
    (∀ n, n ≤ size → candidate op toD size (.abs n) = .ok n) ∧
    (∀ n, size < n → candidate op toD size (.abs n) = .throws .invalidArgument) := by
  refine ⟨?_, ?_, ?_⟩
  · intro n h
    cases rate with
    | abs m =>
      simp only [candidate] at h
      split at h
      · cases h
      · cases h; omega
    | frac x =>
      simp only [candidate] at h
      cases hc : numericCast (op.mul x (toD size)) with
      | ok a => rw [hc] at h; simp at h; omega
      | throws e => rw [hc] at h; simp at h
      | ub => rw [hc] at h; simp at h
      | nofuel => rw [hc] at h; simp at h
  · intro n h
    simp only [candidate]
    rw [if_neg (by omega)]
  · intro n h
    simp only [candidate]
    rw [if_pos h]

/-- C31 (value). In exact arithmetic an accepted fractional rate `k` gives `⌊k * size⌋` individuals, no exception. -/
theorem C31_value [IsStrictOrderedRing K] (k : K) (h0 : 0 ≤ k) (h1 : k ≤ 1) (size : Nat) (hs : size < 2 ^ 64) :
    candidate (Fl.exact K) (fun n => .fin (n : K)) size (.frac (.fin k)) = .ok ⌊k * size⌋.toNat ∧
    ⌊k * size⌋.toNat ≤ size := by
  have hsz : (0 : K) ≤ (size : K) := Nat.cast_nonneg _
  have hle : k * size ≤ (size : K) := by nlinarith
  have hnn : 0 ≤ k * size := mul_nonneg h0 hsz
  have hfl : ⌊k * size⌋.toNat ≤ size := by
    have : ⌊k * (size : K)⌋ ≤ (size : ℤ) := by
      have h := Int.floor_le_floor hle
      rwa [Int.floor_natCast] at h
    omega
  refine ⟨?_, hfl⟩
  unfold candidate
  show (numericCast (.fin (k * size)) >>= fun n => Outcome.ok (min n size)) = _
  have hlt : k * (size : K) < ((2 ^ 64 : Nat) : K) :=
    lt_of_le_of_lt hle (by exact_mod_cast hs)
  rw [numericCast, if_pos ⟨by linarith, hlt⟩]
  simp [hfl]

end

example : candidate (Fl.exact ℚ) (fun n => .fin (n : ℚ)) 7 (.frac (.fin (1/2))) = .ok 3 := by decide +kernel

/-! ## The order of individuals -/

/-- `idx` names `n` different entries of a list of length `len`, none of which is worse than an entry left out:
`ge a b` means that `a` may be preferred to `b`. -/
structure BestIdx (ge : Nat → Nat → Prop) (len n : Nat) (idx : List Nat) : Prop where
  nodup : idx.Nodup
  length : idx.length = n
  bound : ∀ i ∈ idx, i < len
  best : ∀ a ∈ idx, ∀ b, b < len → b ∉ idx → ge a b

/-- a permutation sorted by `ge` has the best elements first -/
theorem bestIdx_take {ge : Nat → Nat → Prop} {len n : Nat} {idx : List Nat} (hp : idx.Perm (List.range len))
    (hs : idx.Pairwise ge) (hn : n ≤ len) : BestIdx ge len n (idx.take n) := by
  have hnd : idx.Nodup := hp.nodup_iff.mpr List.nodup_range
  refine ⟨hnd.sublist (List.take_sublist _ _), ?_, ?_, ?_⟩
  · rw [List.length_take, hp.length_eq, List.length_range]; omega
  · intro i hi
    have := hp.mem_iff.mp (List.mem_of_mem_take hi)
    simpa using this
  · intro a ha b hb hnb
    have hb' : b ∈ idx.drop n := by
      have : b ∈ idx := hp.mem_iff.mpr (by simpa using hb)
      rw [← List.take_append_drop n idx] at this
      rcases List.mem_append.mp this with h | h
      · exact absurd h hnb
      · exact h
    rw [← List.take_append_drop n idx, List.pairwise_append] at hs
    exact hs.2.2 a ha b hb'

/-- `r` consists of the individuals of `g` with indices `idx`, in that order -/
structure PickedFrom (g : Inds K) (idx : List Nat) (r : Inds K) : Prop where
  ids : r.ids.map some = idx.map (fun i => g.ids[i]?)
  dvs : r.dvs.map some = idx.map (fun i => g.dvs[i]?)
  fvs : r.fvs.map some = idx.map (fun i => g.fvs[i]?)

theorem pick_sat {src : Inds K} {idx : List Nat} {n len : Nat} (hi : src.ids.length = len) (hd : src.dvs.length = len)
    (hf : src.fvs.length = len) (hn : n ≤ idx.length) (hb : ∀ i ∈ idx.take n, i < len) (dst : Inds K) :
    (pick src idx n dst).Sat (fun r => ∃ p, PickedFrom src (idx.take n) p ∧
      r = ⟨dst.ids ++ p.ids, dst.dvs ++ p.dvs, dst.fvs ++ p.fvs⟩) := by
  unfold pick
  refine range_sat (fun k r => ∃ p, PickedFrom src (idx.take k) p ∧
      r = ⟨dst.ids ++ p.ids, dst.dvs ++ p.dvs, dst.fvs ++ p.fvs⟩) n dst ?_ ?_
  · exact ⟨⟨[], [], []⟩, ⟨by simp, by simp, by simp⟩, by simp⟩
  · rintro k r hk ⟨p, hp, rfl⟩
    have hkl : k < idx.length := by omega
    have hik : idx[k] < len := hb _ (List.mem_take_iff_getElem.mpr ⟨k, by omega, rfl⟩)
    rw [get_of_lt hkl, bind_ok, get_of_lt (by omega : idx[k] < src.ids.length), bind_ok,
      get_of_lt (by omega : idx[k] < src.dvs.length), bind_ok, get_of_lt (by omega : idx[k] < src.fvs.length), bind_ok,
      sat_ok]
    refine ⟨p.push src.ids[idx[k]] src.dvs[idx[k]] src.fvs[idx[k]], ?_, by simp [Inds.push]⟩
    have ht : idx.take (k + 1) = idx.take k ++ [idx[k]] := by
      rw [List.take_succ_eq_append_getElem hkl]
    refine ⟨?_, ?_, ?_⟩
    · rw [ht, List.map_append, ← hp.ids]; simp [Inds.push, List.getElem?_eq_getElem (by omega : idx[k] < src.ids.length)]
    · rw [ht, List.map_append, ← hp.dvs]; simp [Inds.push, List.getElem?_eq_getElem (by omega : idx[k] < src.dvs.length)]
    · rw [ht, List.map_append, ← hp.fvs]; simp [Inds.push, List.getElem?_eq_getElem (by omega : idx[k] < src.fvs.length)]

theorem picked_len {g : Inds K} {idx : List Nat} {r : Inds K} (h : PickedFrom g idx r) :
    r.ids.length = idx.length ∧ r.dvs.length = idx.length ∧ r.fvs.length = idx.length := by
  refine ⟨?_, ?_, ?_⟩
  · have := congrArg List.length h.ids; simpa using this
  · have := congrArg List.length h.dvs; simpa using this
  · have := congrArg List.length h.fvs; simpa using this

theorem picked_mem {g : Inds K} {idx : List Nat} {r : Inds K} (h : PickedFrom g idx r) :
    (∀ x ∈ r.dvs, x ∈ g.dvs) ∧ (∀ x ∈ r.fvs, x ∈ g.fvs) := by
  constructor
  · intro x hx
    have : some x ∈ r.dvs.map some := List.mem_map.mpr ⟨x, hx, rfl⟩
    rw [h.dvs, List.mem_map] at this
    obtain ⟨i, _, hi⟩ := this
    exact List.mem_of_getElem? hi
  · intro x hx
    have : some x ∈ r.fvs.map some := List.mem_map.mpr ⟨x, hx, rfl⟩
    rw [h.fvs, List.mem_map] at this
    obtain ⟨i, _, hi⟩ := this
    exact List.mem_of_getElem? hi

section
variable [Field K] [LinearOrder K]

/-- entry `b` is not better than entry `a`: first fitness value, NaN worst -/
def FirstGE (fvs : List (List (Fl K))) (a b : Nat) : Prop :=
  ∀ (x y : Fl K) (xs ys : List (Fl K)), fvs[a]? = some (x :: xs) → fvs[b]? = some (y :: ys) → ¬ y < x

theorem sortFirst_sat {srt : (Nat → Nat → Bool) → List Nat → List Nat} (hsrt : ValidSort srt)
    {fvs : List (List (Fl K))} (hl : ∀ f ∈ fvs, f ≠ []) :
    (sortFirst srt fvs).Sat (fun idx => idx.Perm (List.range fvs.length) ∧ idx.Pairwise (FirstGE fvs)) := by
  unfold sortFirst
  rw [if_neg]
  · have hswo : swoOn (firstLt fvs) (List.range fvs.length) = true := by
      refine swoOn_of_key (fun i => match fvs[i]? with
        | some (a :: _) => a
        | _ => .nan) ?_
      intro a ha b hb
      have ha : a < fvs.length := by simpa using ha
      have hb : b < fvs.length := by simpa using hb
      have h1 := hl _ (List.getElem_mem ha)
      have h2 := hl _ (List.getElem_mem hb)
      unfold firstLt
      rw [List.getElem?_eq_getElem ha, List.getElem?_eq_getElem hb]
      rcases hx : fvs[a] with _ | ⟨x, xs⟩
      · exact absurd hx h1
      · rcases hy : fvs[b] with _ | ⟨y, ys⟩
        · exact absurd hy h2
        · simp
    refine (stdSort_sat hsrt hswo).mono ?_
    rintro idx ⟨h1, h2⟩
    refine ⟨h1, h2.imp ?_⟩
    intro a b h x y xs ys hx hy hlt
    unfold firstLt at h
    rw [hx, hy] at h
    simp only at h
    rw [← Bool.not_eq_true, Fl.lessThanF_iff] at h
    exact h hlt
  · simp only [List.any_eq_true, not_exists, not_and]
    intro f hf he
    exact hl f hf (List.isEmpty_iff.mp he)

variable [FloorRing K]

/-- What the branch of the policies in force guarantees about the order it produces. -/
def OrdOk (ord : List (List (Fl K)) → Nat → Outcome (List Nat)) (ge : List (List (Fl K)) → Nat → Nat → Prop)
    (nf : Nat) : Prop :=
  ∀ fvs : List (List (Fl K)), (∀ f ∈ fvs, f.length = nf) → ∀ n ≤ fvs.length,
    (ord fvs n).Sat (fun idx => n ≤ idx.length ∧ BestIdx (ge fvs) fvs.length n (idx.take n))

/-- the individuals of `inds` followed by the migrants `acc` -/
def merge (inds acc : Inds K) : Inds K := ⟨inds.ids ++ acc.ids, inds.dvs ++ acc.dvs, inds.fvs ++ acc.fvs⟩

/-- Result of a fair replacement. `acc` are the migrants considered: the best ones, as many as the rate allows (and as
there are). The result `r` consists of as many individuals as there were, the best ones of `inds` and `acc`
together. -/
def FairResult (ge : List (List (Fl K)) → Nat → Nat → Prop) (op : Fl.Ops K) (toD : Nat → Fl K) (rate : Rate K)
    (inds mig r : Inds K) : Prop :=
  ∃ c migIdx acc idx, candidate op toD inds.ids.length rate = .ok c ∧
    BestIdx (ge mig.fvs) mig.ids.length (min c mig.ids.length) migIdx ∧ PickedFrom mig migIdx acc ∧
    BestIdx (ge (merge inds acc).fvs) (inds.ids.length + min c mig.ids.length) inds.ids.length idx ∧
    PickedFrom (merge inds acc) idx r

theorem fair_general {op : Fl.Ops K} {toD : Nat → Fl K} {srt : (Nat → Nat → Bool) → List Nat → List Nat}
    {sq : Fl K → Fl K} {rate : Rate K} {inds : Inds K} {nx nobj nec nic : Nat} {tol : List (Fl K)} {mig : Inds K}
    {ge : List (List (Fl K)) → Nat → Nat → Prop}
    (hord : OrdOk (order op srt sq nobj nec nic tol) ge (nobj + nec + nic))
    (hi : GroupOk inds nx (nobj + nec + nic)) (hm : GroupOk mig nx (nobj + nec + nic))
    (hb : ¬ (nobj > 1 ∧ (nic ≠ 0 ∨ nec ≠ 0))) :
    (∀ e, candidate op toD inds.ids.length rate = .throws e →
      fairReplace op toD srt sq rate inds nobj nec nic tol mig = .throws e) ∧
    (∀ c, candidate op toD inds.ids.length rate = .ok c →
      (fairReplace op toD srt sq rate inds nobj nec nic tol mig).Sat (fun r =>
        FairResult ge op toD rate inds mig r ∧ GroupOk r nx (nobj + nec + nic) ∧ r.ids.length = inds.ids.length)) := by
  unfold fairReplace
  rw [if_neg hb, hi.dvs, hm.dvs]
  constructor
  · intro e he
    rw [he]; rfl
  · intro c hc
    rw [hc]
    simp only [bind_ok]
    have h1 := hord mig.fvs hm.fvLen (min c mig.ids.length) (by rw [hm.fvs]; omega)
    refine h1.bind ?_
    rintro migIdx ⟨h2, h3⟩
    rw [hm.fvs] at h3
    refine (pick_sat rfl hm.dvs hm.fvs h2 h3.bound inds).bind ?_
    rintro merged ⟨acc, hacc, rfl⟩
    have hl := picked_len hacc
    rw [h3.length] at hl
    have hmem := picked_mem hacc
    have hmf : ∀ f ∈ inds.fvs ++ acc.fvs, f.length = nobj + nec + nic := by
      intro f hf
      rcases List.mem_append.mp hf with hf | hf
      · exact hi.fvLen f hf
      · exact hm.fvLen f (hmem.2 f hf)
    have hmd : ∀ f ∈ inds.dvs ++ acc.dvs, f.length = nx := by
      intro f hf
      rcases List.mem_append.mp hf with hf | hf
      · exact hi.dvLen f hf
      · exact hm.dvLen f (hmem.1 f hf)
    have hlen : (inds.fvs ++ acc.fvs).length = inds.ids.length + min c mig.ids.length := by
      simp [hi.fvs, hl.2.2]
    have h4 := hord (inds.fvs ++ acc.fvs) hmf inds.ids.length (by rw [hlen]; omega)
    refine h4.bind ?_
    rintro idx ⟨h5, h6⟩
    rw [hlen] at h6
    refine (pick_sat (len := inds.ids.length + min c mig.ids.length) (by simp [hl.1]) (by simp [hi.dvs, hl.2.1]) hlen h5
      h6.bound ⟨[], [], []⟩).mono ?_
    rintro r ⟨p, hp, rfl⟩
    simp only [List.nil_append]
    have hpl := picked_len hp
    rw [h6.length] at hpl
    have hpm := picked_mem hp
    exact ⟨⟨c, migIdx.take (min c mig.ids.length), acc, idx.take inds.ids.length, hc, h3, hacc, h6, hp⟩,
      ⟨by rw [hpl.2.1, hpl.1], by rw [hpl.2.2, hpl.1], fun x hx => hmd x (hpm.1 x hx), fun x hx => hmf x (hpm.2 x hx)⟩,
      hpl.1⟩

theorem select_general {op : Fl.Ops K} {toD : Nat → Fl K} {srt : (Nat → Nat → Bool) → List Nat → List Nat}
    {sq : Fl K → Fl K} {rate : Rate K} {inds : Inds K} {nx nobj nec nic : Nat} {tol : List (Fl K)}
    {ge : List (List (Fl K)) → Nat → Nat → Prop}
    (hord : OrdOk (order op srt sq nobj nec nic tol) ge (nobj + nec + nic))
    (hi : GroupOk inds nx (nobj + nec + nic)) (hb : ¬ (nobj > 1 ∧ (nic ≠ 0 ∨ nec ≠ 0))) :
    (∀ e, candidate op toD inds.ids.length rate = .throws e →
      selectBest op toD srt sq rate inds nobj nec nic tol = .throws e) ∧
    (∀ c, candidate op toD inds.ids.length rate = .ok c →
      (selectBest op toD srt sq rate inds nobj nec nic tol).Sat (fun r =>
        (∃ idx, BestIdx (ge inds.fvs) inds.ids.length c idx ∧ PickedFrom inds idx r) ∧
        GroupOk r nx (nobj + nec + nic) ∧ r.ids.length = c)) := by
  unfold selectBest
  rw [if_neg hb, hi.dvs]
  constructor
  · intro e he
    rw [he]; rfl
  · intro c hc
    have hcl := (C31_bound op toD inds.ids.length rate).1 c hc
    rw [hc]
    simp only [bind_ok]
    refine (hord inds.fvs hi.fvLen c (by rw [hi.fvs]; exact hcl)).bind ?_
    rintro idx ⟨h5, h6⟩
    rw [hi.fvs] at h6
    refine (pick_sat (len := inds.ids.length) rfl hi.dvs hi.fvs h5 h6.bound ⟨[], [], []⟩).mono ?_
    rintro r ⟨p, hp, rfl⟩
    simp only [List.nil_append]
    have hpl := picked_len hp
    rw [h6.length] at hpl
    have hpm := picked_mem hp
    exact ⟨⟨idx.take c, h6, hp⟩,
      ⟨by rw [hpl.2.1, hpl.1], by rw [hpl.2.2, hpl.1], fun x hx => hi.dvLen x (hpm.1 x hx),
        fun x hx => hi.fvLen x (hpm.2 x hx)⟩, hpl.1⟩

omit [FloorRing K] in
theorem ordOk_single {op : Fl.Ops K} {srt : (Nat → Nat → Bool) → List Nat → List Nat} (hsrt : ValidSort srt)
    {sq : Fl K → Fl K} {tol : List (Fl K)} : OrdOk (order op srt sq 1 0 0 tol) FirstGE (1 + 0 + 0) := by
  intro fvs hf n hn
  unfold order
  rw [if_pos ⟨rfl, rfl, rfl⟩]
  refine (sortFirst_sat hsrt (fun f h e => by have := hf f h; rw [e] at this; simp at this)).mono ?_
  rintro idx ⟨h1, h2⟩
  exact ⟨by rw [h1.length_eq, List.length_range]; exact hn, bestIdx_take h1 h2 hn⟩

omit [FloorRing K] in
theorem ordOk_multi {op : Fl.Ops K} {srt : (Nat → Nat → Bool) → List Nat → List Nat} (hsrt : ValidSort srt)
    {sq : Fl K → Fl K} {tol : List (Fl K)} {nobj : Nat} (h : 2 ≤ nobj) :
    OrdOk (order op srt sq nobj 0 0 tol) (RankCrowdGE op srt) (nobj + 0 + 0) := by
  intro fvs hf n hn
  unfold order
  rw [if_neg (by omega), if_neg (by omega)]
  refine (C05_select_best op srt hsrt fvs nobj hf h n).mono ?_
  rintro idx ⟨h1, h2, h3, h4⟩
  have hl : idx.length = n := by omega
  rw [List.take_of_length_le (by omega)]
  exact ⟨by omega, h2, hl, h3, h4⟩

/-- C29 (one objective, no constraints). -/
theorem C29_single (op : Fl.Ops K) (toD : Nat → Fl K) (srt : (Nat → Nat → Bool) → List Nat → List Nat)
    (hsrt : ValidSort srt) (sq : Fl K → Fl K) (rate : Rate K) (inds mig : Inds K) (nx : Nat) (tol : List (Fl K))
    (hi : GroupOk inds nx 1) (hm : GroupOk mig nx 1) (c : Nat) (hc : candidate op toD inds.ids.length rate = .ok c) :
    (fairReplace op toD srt sq rate inds 1 0 0 tol mig).Sat (fun r =>
      FairResult FirstGE op toD rate inds mig r ∧ GroupOk r nx 1 ∧ r.ids.length = inds.ids.length) :=
  (fair_general (ordOk_single hsrt) hi hm (by omega)).2 c hc

/-- C29 (several objectives): ordered by non-domination rank, then crowding distance. -/
theorem C29_multi (op : Fl.Ops K) (toD : Nat → Fl K) (srt : (Nat → Nat → Bool) → List Nat → List Nat)
    (hsrt : ValidSort srt) (sq : Fl K → Fl K) (rate : Rate K) (inds mig : Inds K) (nx nobj : Nat) (h : 2 ≤ nobj)
    (tol : List (Fl K)) (hi : GroupOk inds nx nobj) (hm : GroupOk mig nx nobj) (c : Nat)
    (hc : candidate op toD inds.ids.length rate = .ok c) :
    (fairReplace op toD srt sq rate inds nobj 0 0 tol mig).Sat (fun r =>
      FairResult (RankCrowdGE op srt) op toD rate inds mig r ∧ GroupOk r nx nobj ∧ r.ids.length = inds.ids.length) :=
  (fair_general (ordOk_multi hsrt h) hi hm (by omega)).2 c hc

/-- C29 (rejected). Several objectives and constraints, or an absolute rate above the population size. -/
theorem C29_rejects (op : Fl.Ops K) (toD : Nat → Fl K) (srt : (Nat → Nat → Bool) → List Nat → List Nat)
    (sq : Fl K → Fl K) (rate : Rate K) (inds mig : Inds K) (nobj nec nic : Nat) (tol : List (Fl K))
    (h : (nobj > 1 ∧ (nic ≠ 0 ∨ nec ≠ 0)) ∨ ∃ n, rate = .abs n ∧ inds.dvs.length < n) :
    fairReplace op toD srt sq rate inds nobj nec nic tol mig = .throws .invalidArgument ∧
    selectBest op toD srt sq rate inds nobj nec nic tol = .throws .invalidArgument := by
  unfold fairReplace selectBest
  by_cases hb : nobj > 1 ∧ (nic ≠ 0 ∨ nec ≠ 0)
  · rw [if_pos hb, if_pos hb]; exact ⟨rfl, rfl⟩
  · obtain ⟨n, rfl, hn⟩ : ∃ n, rate = .abs n ∧ inds.dvs.length < n := by tauto
    rw [if_neg hb, if_neg hb, (C31_bound op toD inds.dvs.length (.abs n)).2.2 n hn]
    exact ⟨rfl, rfl⟩

/-- C30 (one objective, no constraints). -/
theorem C30_single (op : Fl.Ops K) (toD : Nat → Fl K) (srt : (Nat → Nat → Bool) → List Nat → List Nat)
    (hsrt : ValidSort srt) (sq : Fl K → Fl K) (rate : Rate K) (inds : Inds K) (nx : Nat) (tol : List (Fl K))
    (hi : GroupOk inds nx 1) (c : Nat) (hc : candidate op toD inds.ids.length rate = .ok c) :
    (selectBest op toD srt sq rate inds 1 0 0 tol).Sat (fun r =>
        (∃ idx, BestIdx (FirstGE inds.fvs) inds.ids.length c idx ∧ PickedFrom inds idx r) ∧
        GroupOk r nx 1 ∧ r.ids.length = c) :=
  (select_general (ordOk_single hsrt) hi (by omega)).2 c hc

/-- C30 (several objectives). -/
theorem C30_multi (op : Fl.Ops K) (toD : Nat → Fl K) (srt : (Nat → Nat → Bool) → List Nat → List Nat)
    (hsrt : ValidSort srt) (sq : Fl K → Fl K) (rate : Rate K) (inds : Inds K) (nx nobj : Nat) (h : 2 ≤ nobj)
    (tol : List (Fl K)) (hi : GroupOk inds nx nobj) (c : Nat) (hc : candidate op toD inds.ids.length rate = .ok c) :
    (selectBest op toD srt sq rate inds nobj 0 0 tol).Sat (fun r =>
        (∃ idx, BestIdx (RankCrowdGE op srt inds.fvs) inds.ids.length c idx ∧ PickedFrom inds idx r) ∧
        GroupOk r nx nobj ∧ r.ids.length = c) :=
  (select_general (ordOk_multi hsrt h) hi (by omega)).2 c hc

end

/-- entry `b` is not better than entry `a`: constraints first -/
def FcGE (nec : Nat) (tol : List (Fl ℝ)) (fvs : List (List (Fl ℝ))) (a b : Nat) : Prop :=
  ∀ f g, fvs[a]? = some f → fvs[b]? = some g → ¬ FcBetter nec tol g f

theorem ordOk_con {op : Fl.Ops ℝ} {srt : (Nat → Nat → Bool) → List Nat → List Nat} (hsrt : ValidSort srt)
    {tol : List (Fl ℝ)} {nec nic : Nat} (ht : tol.length = nec + nic) (h0 : nec + nic ≠ 0) (h1 : nec = 0 ∨ nic = 0) :
    OrdOk (order op srt Fl.sqrtR 1 nec nic tol) (FcGE nec tol) (1 + nec + nic) := by
  intro fvs hf n hn
  unfold order
  rw [if_neg (by omega), if_pos rfl]
  refine (C13_sort_partial srt hsrt fvs nec tol (by omega) ?_).mono ?_
  · intro f hfm
    exact ⟨by rw [hf f hfm, ht]; omega, by omega⟩
  · rintro idx ⟨h2, h3⟩
    exact ⟨by rw [h2.length_eq, List.length_range]; exact hn, bestIdx_take h2 h3 hn⟩

/-- C29 (one objective with constraints), partial: one kind of constraints only. With both kinds the comparison is not a
strict weak ordering (C13_sort_undefined_behaviour), `std::sort` may do anything. -/
theorem C29_constrained_partial (op : Fl.Ops ℝ) (toD : Nat → Fl ℝ) (srt : (Nat → Nat → Bool) → List Nat → List Nat)
    (hsrt : ValidSort srt) (rate : Rate ℝ) (inds mig : Inds ℝ) (nx nec nic : Nat)
    (tol : List (Fl ℝ)) (ht : tol.length = nec + nic) (h0 : nec + nic ≠ 0) (h1 : nec = 0 ∨ nic = 0)
    (hi : GroupOk inds nx (1 + nec + nic)) (hm : GroupOk mig nx (1 + nec + nic)) (c : Nat)
    (hc : candidate op toD inds.ids.length rate = .ok c) :
    (fairReplace op toD srt Fl.sqrtR rate inds 1 nec nic tol mig).Sat (fun r =>
      FairResult (FcGE nec tol) op toD rate inds mig r ∧ GroupOk r nx (1 + nec + nic) ∧
      r.ids.length = inds.ids.length) :=
  (fair_general (ordOk_con hsrt ht h0 h1) hi hm (by omega)).2 c hc

/-- C30 (one objective with constraints), partial: one kind of constraints only. -/
theorem C30_constrained_partial (op : Fl.Ops ℝ) (toD : Nat → Fl ℝ) (srt : (Nat → Nat → Bool) → List Nat → List Nat)
    (hsrt : ValidSort srt) (rate : Rate ℝ) (inds : Inds ℝ) (nx nec nic : Nat)
    (tol : List (Fl ℝ)) (ht : tol.length = nec + nic) (h0 : nec + nic ≠ 0) (h1 : nec = 0 ∨ nic = 0)
    (hi : GroupOk inds nx (1 + nec + nic)) (c : Nat) (hc : candidate op toD inds.ids.length rate = .ok c) :
    (selectBest op toD srt Fl.sqrtR rate inds 1 nec nic tol).Sat (fun r =>
      (∃ idx, BestIdx (FcGE nec tol inds.fvs) inds.ids.length c idx ∧ PickedFrom inds idx r) ∧
      GroupOk r nx (1 + nec + nic) ∧ r.ids.length = c) :=
  (select_general (ordOk_con hsrt ht h0 h1) hi (by omega)).2 c hc

/-- A migrant that is better than the worst individual replaces it; a worse one is not taken. -/
example : fairReplace (Fl.exact ℚ) (fun n => .fin (n : ℚ)) insSort id (.abs 2) demoGroup 1 0 0 []
    ⟨[9, 10, 11], [[.fin 5], [.fin 6], [.fin 7]], [[.fin 9], [.fin 1], [.fin 8]]⟩ =
    .ok ⟨[10, 7], [[.fin 6], [.fin 0]], [[.fin 1], [.fin 3]]⟩ := by decide +kernel

example : GroupOk demoGroup 1 1 := ⟨by decide, by decide, by decide, by decide⟩

end Verif.Props
