import Verif.Model.Ipopt
import Verif.Props.Problem
import Verif.Props.SelectReplace

/-!
# Lemmas about the wrappers of NLopt and Ipopt
-/

set_option autoImplicit false

namespace Verif.Props

open Verif Run Prob Pop Alg

/-! ### Matrices given by a pattern and values -/

section matrix
variable {R : Type}

/-- `d` is the entry `(i, j)` of the matrix whose entries at the positions `sp` are `g`; the other entries are `z`. -/
def MatEntry (z : R) (sp : List (Nat × Nat)) (g : List R) (i j : Nat) (d : R) : Prop :=
  (∃ k : Nat, sp[k]? = some (i, j) ∧ g[k]? = some d) ∨ ((i, j) ∉ sp ∧ d = z)

theorem nlSlice_ok {l : List R} {i n : Nat} (h : i + n ≤ l.length) : nlSlice l i n = .ok ((l.drop i).take n) := if_pos h

theorem nlSlice_get {l r : List R} {i n : Nat} (h : nlSlice l i n = .ok r) : r.length = n ∧ ∀ k : Nat, k < n → r[k]? = l[i + k]? := by
  unfold nlSlice at h
  split at h
  · rename_i hl
    cases h
    refine ⟨by rw [List.length_take, List.length_drop]; omega, fun k hk => ?_⟩
    rw [List.getElem?_take_of_lt hk, List.getElem?_drop]
  · cases h

theorem nlScatter_ok {idx : Nat × Nat → Nat} : ∀ {ps : List (Nat × Nat)} {g out : List R}, ps.length ≤ g.length →
    (∀ p ∈ ps, idx p < out.length) → ps.Pairwise (fun p q => idx p ≠ idx q) →
    ∃ r, nlScatter idx ps g out = .ok r ∧ r.length = out.length ∧ (∀ (k : Nat) (p : Nat × Nat), ps[k]? = some p → r[idx p]? = g[k]?) ∧
      ∀ n : Nat, (∀ p ∈ ps, idx p ≠ n) → r[n]? = out[n]? := by
  intro ps
  induction ps with
  | nil => intro g out _ _ _; exact ⟨out, rfl, rfl, by simp, fun _ _ => rfl⟩
  | cons p ps ih =>
    intro g out hl hi hp
    cases g with
    | nil => simp at hl
    | cons d g =>
      have h1 : idx p < out.length := hi p (by simp)
      obtain ⟨hp1, hp2⟩ := List.pairwise_cons.mp hp
      obtain ⟨r, hr, hrl, ha, hb⟩ := ih (g := g) (out := out.set (idx p) d) (by simpa using hl)
        (fun q hq => by rw [List.length_set]; exact hi q (by simp [hq])) hp2
      refine ⟨r, ?_, by rw [hrl, List.length_set], ?_, ?_⟩
      · rw [nlScatter, Outcome.set_of_lt h1]; exact hr
      · intro k q hk
        cases k with
        | zero =>
          simp only [List.getElem?_cons_zero, Option.some.injEq] at hk
          subst hk
          rw [hb (idx p) (fun q hq => (hp1 q hq).symm), List.getElem?_set_self h1, List.getElem?_cons_zero]
        | succ k =>
          rw [List.getElem?_cons_succ] at hk
          rw [ha k q hk, List.getElem?_cons_succ]
      · intro n hn
        rw [hb n (fun q hq => hn q (by simp [hq])), List.getElem?_set_ne (hn p (by simp))]

/-- `ps` with the values `gs` are the entries of `sp` with the values `g` for which `q` holds. -/
structure NlPart (q : Nat × Nat → Prop) (sp : List (Nat × Nat)) (g : List R) (ps : List (Nat × Nat)) (gs : List R) : Prop where
  fwd : ∀ (n : Nat) (p : Nat × Nat), ps[n]? = some p → q p ∧ ∃ m : Nat, sp[m]? = some p ∧ gs[n]? = g[m]?
  bwd : ∀ (m : Nat) (p : Nat × Nat), sp[m]? = some p → q p → ∃ n : Nat, ps[n]? = some p ∧ gs[n]? = g[m]?
  nodup : ps.Nodup
  len : ps.length ≤ gs.length

theorem NlPart.scatter {q : Nat × Nat → Prop} {sp : List (Nat × Nat)} {g : List R} {ps : List (Nat × Nat)} {gs : List R}
    (h : NlPart q sp g ps gs) (hl : sp.length ≤ g.length) {idx : Nat × Nat → Nat} {N : Nat} (z : R)
    (hi : ∀ p, q p → p ∈ sp → idx p < N)
    (hinj : ∀ p p', q p → q p' → p ∈ sp → idx p = idx p' → p = p') :
    ∃ r, nlScatter idx ps gs (List.replicate N z) = .ok r ∧ r.length = N ∧
      ∀ i j : Nat, q (i, j) → idx (i, j) < N → ∃ d, r[idx (i, j)]? = some d ∧ MatEntry z sp g i j d := by
  have hmem : ∀ p ∈ ps, q p ∧ p ∈ sp := by
    intro p hp
    obtain ⟨n, hn⟩ := List.getElem?_of_mem hp
    obtain ⟨h1, m, h2, _⟩ := h.fwd n p hn
    exact ⟨h1, List.mem_of_getElem? h2⟩
  obtain ⟨r, hr, hrl, ha, hb⟩ := nlScatter_ok (idx := idx) (ps := ps) (g := gs) (out := List.replicate N z) h.len
    (fun p hp => by rw [List.length_replicate]; exact hi p (hmem p hp).1 (hmem p hp).2)
    (List.Pairwise.imp_of_mem (fun {a b} ha hb hne e => hne (hinj a b (hmem a ha).1 (hmem b hb).1 (hmem a ha).2 e)) h.nodup)
  rw [List.length_replicate] at hrl
  refine ⟨r, hr, hrl, fun i j hq hN => ?_⟩
  by_cases hin : (i, j) ∈ sp
  · obtain ⟨m, hm⟩ := List.getElem?_of_mem hin
    obtain ⟨n, hn, hv⟩ := h.bwd m _ hm hq
    have hml : m < g.length := lt_of_lt_of_le (List.getElem?_eq_some_iff.mp hm).1 hl
    refine ⟨g[m], by rw [ha n _ hn, hv, List.getElem?_eq_getElem hml], Or.inl ⟨m, hm, List.getElem?_eq_getElem hml⟩⟩
  · refine ⟨z, ?_, Or.inr ⟨hin, rfl⟩⟩
    rw [hb (idx (i, j)), List.getElem?_replicate, if_pos hN]
    intro p hp e
    have := hinj p (i, j) (hmem p hp).1 hq (hmem p hp).2 e
    exact hin (this ▸ (hmem p hp).2)

/-- In an ascending list the elements for which a downward closed condition holds are a prefix. -/
theorem takeWhile_get {q : Nat × Nat → Bool} {l : List (Nat × Nat)} (hl : l.Pairwise LexLt)
    (hq : ∀ a b, LexLt a b → q b = true → q a = true) (n : Nat) (p : Nat × Nat) :
    (l.takeWhile q)[n]? = some p ↔ l[n]? = some p ∧ q p = true := by
  induction l generalizing n with
  | nil => simp
  | cons a l ih =>
    obtain ⟨h1, h2⟩ := List.pairwise_cons.mp hl
    by_cases ha : q a = true
    · rw [List.takeWhile_cons_of_pos ha]
      cases n with
      | zero =>
        simp only [List.getElem?_cons_zero, Option.some.injEq]
        exact ⟨fun e => ⟨e, e ▸ ha⟩, fun e => e.1⟩
      | succ n => rw [List.getElem?_cons_succ, List.getElem?_cons_succ]; exact ih h2 n
    · rw [List.takeWhile_cons_of_neg ha]
      constructor
      · intro h; simp at h
      · rintro ⟨h, hp⟩
        exfalso
        cases n with
        | zero =>
          simp only [List.getElem?_cons_zero, Option.some.injEq] at h
          exact ha (h ▸ hp)
        | succ n =>
          rw [List.getElem?_cons_succ] at h
          exact ha (hq _ _ (h1 p (List.mem_of_getElem? h)) hp)

theorem nlLower_eq (sp : List (Nat × Nat)) (key : Nat × Nat) : nlLower sp key = (sp.takeWhile (fun p => pairLt p key)).length := by
  unfold nlLower
  induction sp with
  | nil => rfl
  | cons a l ih =>
    rw [List.findIdx_cons]
    by_cases h : pairLt a key = true
    · simp [List.takeWhile_cons, h, ih]
    · simp [List.takeWhile_cons, h]

/-- `std::lower_bound` on an ascending pattern: the positions from it on are those of the pairs that are not below `key`. -/
theorem nlLower_spec {sp : List (Nat × Nat)} (hs : sp.Pairwise LexLt) (key : Nat × Nat) (n : Nat) (p : Nat × Nat) (h : sp[n]? = some p) :
    nlLower sp key ≤ n ↔ ¬ LexLt p key := by
  have h1 := takeWhile_get (q := fun p => pairLt p key) hs
    (fun a b hab hb => (pairLt_iff _ _).mpr (lexLt_trans hab ((pairLt_iff _ _).mp hb))) n p
  rw [nlLower_eq, ← pairLt_iff]
  constructor
  · intro hle hb
    have := (List.getElem?_eq_some_iff.mp (h1.mpr ⟨h, hb⟩)).1
    omega
  · intro hb
    by_contra hlt
    push Not at hlt
    have h2 := List.getElem?_eq_getElem hlt
    have h3 := (takeWhile_get (q := fun p => pairLt p key) hs
      (fun a b hab hb => (pairLt_iff _ _).mpr (lexLt_trans hab ((pairLt_iff _ _).mp hb))) n _).mp h2
    rw [h] at h3
    exact hb ((Option.some.inj h3.1) ▸ h3.2)

theorem nlPart_take {sp : List (Nat × Nat)} {g : List R} (hs : sp.Pairwise LexLt) (hl : sp.length ≤ g.length) {q : Nat × Nat → Bool}
    (hq : ∀ a b, LexLt a b → q b = true → q a = true) : NlPart (fun p => q p = true) sp g (sp.takeWhile q) g where
  fwd n p h := by
    obtain ⟨h1, h2⟩ := (takeWhile_get hs hq n p).mp h
    exact ⟨h2, n, h1, rfl⟩
  bwd m p h hp := ⟨m, (takeWhile_get hs hq m p).mpr ⟨h, hp⟩, rfl⟩
  nodup := (List.takeWhile_sublist q).nodup (lex_nodup hs)
  len := le_trans (List.takeWhile_sublist q).length_le hl

theorem nlPart_drop {sp : List (Nat × Nat)} {g : List R} (hs : sp.Pairwise LexLt) (hl : sp.length ≤ g.length) (key : Nat × Nat) :
    NlPart (fun p => ¬ LexLt p key) sp g (sp.drop (nlLower sp key)) (g.drop (nlLower sp key)) where
  fwd n p h := by
    rw [List.getElem?_drop] at h
    exact ⟨(nlLower_spec hs key _ p h).mp (by omega), nlLower sp key + n, h, by rw [List.getElem?_drop]⟩
  bwd m p h hp := by
    have := (nlLower_spec hs key m p h).mpr hp
    refine ⟨m - nlLower sp key, ?_, ?_⟩ <;> rw [List.getElem?_drop] <;> [rw [← h]; skip] <;> congr 1 <;> omega
  nodup := (List.drop_sublist _ sp).nodup (lex_nodup hs)
  len := by rw [List.length_drop, List.length_drop]; omega

theorem NlPart.trans {q q' : Nat × Nat → Prop} {sp sp1 sp2 : List (Nat × Nat)} {g g1 g2 : List R} (h : NlPart q sp g sp1 g1)
    (h' : NlPart q' sp1 g1 sp2 g2) : NlPart (fun p => q p ∧ q' p) sp g sp2 g2 where
  fwd n p hn := by
    obtain ⟨a, m, b, c⟩ := h'.fwd n p hn
    obtain ⟨a', m', b', c'⟩ := h.fwd m p b
    exact ⟨⟨a', a⟩, m', b', c.trans c'⟩
  bwd m p hm hp := by
    obtain ⟨n, a, b⟩ := h.bwd m p hm hp.1
    obtain ⟨n', a', b'⟩ := h'.bwd n p a hp.2
    exact ⟨n', a', b'.trans b⟩
  nodup := h'.nodup
  len := h'.len

theorem denseGradient_get (nf nx i j : Nat) (hi : i < nf) (hj : j < nx) : (denseGradient nf nx)[i * nx + j]? = some (i, j) := by
  induction nf with
  | zero => omega
  | succ n ih =>
    have hl := (C22_dense_gradient n nx).2.2
    have e : denseGradient (n + 1) nx = denseGradient n nx ++ (List.range nx).map (fun j => (n, j)) := by
      unfold denseGradient; rw [List.range_succ, List.flatMap_append]; simp
    rw [e]
    by_cases h : i < n
    · have : i * nx + j < n * nx := by
        calc i * nx + j < (i + 1) * nx := by rw [Nat.add_mul]; omega
          _ ≤ n * nx := Nat.mul_le_mul_right _ h
      rw [List.getElem?_append_left (by rw [hl]; exact this)]
      exact ih h
    · have : i = n := by omega
      subst this
      rw [List.getElem?_append_right (by rw [hl]; omega), hl, Nat.add_sub_cancel_left, List.getElem?_map, List.getElem?_range hj]
      rfl

theorem matEntry_dense {z : R} {nf nx i j : Nat} {g : List R} (hg : g.length = nf * nx) (hi : i < nf) (hj : j < nx) :
    ∃ d, g[i * nx + j]? = some d ∧ MatEntry z (denseGradient nf nx) g i j d := by
  have : i * nx + j < g.length := by
    rw [hg]
    calc i * nx + j < (i + 1) * nx := by rw [Nat.add_mul]; omega
      _ ≤ nf * nx := Nat.mul_le_mul_right _ hi
  exact ⟨g[i * nx + j], List.getElem?_eq_getElem this, Or.inl ⟨_, denseGradient_get nf nx i j hi hj, List.getElem?_eq_getElem this⟩⟩

/-- The pattern `gradient_sparsity()` returns when the user's is `o`. -/
def nlPat (nf nx : Nat) (o : Option (List (Nat × Nat))) : List (Nat × Nat) := o.getD (denseGradient nf nx)

theorem nlObjGrad_ok (z : R) {nf nx : Nat} {o : Option (List (Nat × Nat))} (hnf : 0 < nf) (hp : GradPattern nf nx (nlPat nf nx o)) {g : List R}
    (hg : g.length = (nlPat nf nx o).length) :
    ∃ r, nlObjGrad z nx o g = .ok r ∧ r.length = nx ∧ ∀ j : Nat, j < nx → ∃ d, r[j]? = some d ∧ MatEntry z (nlPat nf nx o) g 0 j d := by
  cases o with
  | some sp =>
    change GradPattern nf nx sp at hp
    change g.length = sp.length at hg
    obtain ⟨r, h1, h2, h3⟩ := (nlPart_take (q := fun p => decide (p.1 = 0)) hp.2 hg.ge
      (fun a b hab hb => by simp only [decide_eq_true_eq, LexLt] at *; omega)).scatter hg.ge (idx := fun p => p.2) (N := nx) z
      (fun p _ hp' => (hp.1 p hp').2)
      (fun p p' h h' _ e => by simp only [decide_eq_true_eq] at h h'; exact Prod.ext (h.trans h'.symm) e)
    exact ⟨r, h1, h2, fun j hj => h3 0 j (by simp) hj⟩
  | none =>
    have hg' : g.length = nf * nx := by rw [hg]; exact (C22_dense_gradient nf nx).2.2
    have hle : nx ≤ nf * nx := Nat.le_mul_of_pos_left _ hnf
    refine ⟨_, nlSlice_ok (by omega), (nlSlice_get (nlSlice_ok (by omega))).1, fun j hj => ?_⟩
    rw [(nlSlice_get (nlSlice_ok (i := 0) (n := nx) (l := g) (by omega))).2 j hj]
    simpa [nlPat] using matEntry_dense (z := z) hg' hnf hj

theorem row_inj {nx a b c d : Nat} (hb : b < nx) (hd : d < nx) (h : a * nx + b = c * nx + d) : a = c ∧ b = d := by
  rcases Nat.lt_trichotomy a c with h1 | h1 | h1
  · have : (a + 1) * nx ≤ c * nx := Nat.mul_le_mul_right _ h1
    rw [Nat.add_mul] at this; omega
  · subst h1; exact ⟨rfl, by omega⟩
  · have : (c + 1) * nx ≤ a * nx := Nat.mul_le_mul_right _ h1
    rw [Nat.add_mul] at this; omega

theorem row_lt {nx n a b : Nat} (ha : a < n) (hb : b < nx) : a * nx + b < nx * n := by
  have : (a + 1) * nx ≤ n * nx := Nat.mul_le_mul_right _ ha
  rw [Nat.add_mul, Nat.mul_comm n] at this; omega

theorem nlIneqGrad_ok (z : R) {nx nec nic : Nat} {o : Option (List (Nat × Nat))}
    (hp : GradPattern (1 + nec + nic) nx (nlPat (1 + nec + nic) nx o)) {g : List R} (hg : g.length = (nlPat (1 + nec + nic) nx o).length) :
    ∃ r, nlIneqGrad z nx nec nic o g = .ok r ∧ r.length = nx * nic ∧
      ∀ i j : Nat, i < nic → j < nx → ∃ d, r[i * nx + j]? = some d ∧ MatEntry z (nlPat (1 + nec + nic) nx o) g (1 + nec + i) j d := by
  cases o with
  | some sp =>
    change GradPattern _ nx sp at hp
    change g.length = sp.length at hg
    -- pairs of the pattern that are not below the key belong to the inequalities
    have hq : NlPart (fun p => nec + 1 ≤ p.1 ∧ p.2 < nx) sp g (sp.drop (nlLower sp (nec + 1, 0))) (g.drop (nlLower sp (nec + 1, 0))) := by
      have h0 := nlPart_drop hp.2 hg.ge (nec + 1, 0)
      refine ⟨fun n p h => ?_, fun m p h hq => h0.bwd m p h (by simp only [LexLt]; omega), h0.nodup, h0.len⟩
      obtain ⟨a, m, hm, hv⟩ := h0.fwd n p h
      exact ⟨⟨by simp only [LexLt] at a; omega, (hp.1 p (List.mem_of_getElem? hm)).2⟩, m, hm, hv⟩
    obtain ⟨r, h1, h2, h3⟩ := hq.scatter hg.ge (idx := fun p => (p.1 - 1 - nec) * nx + p.2) (N := nx * nic) z
      (fun p h hp' => row_lt (by have := (hp.1 p hp').1; omega) h.2)
      (fun p p' h h' _ e => by
        obtain ⟨e1, e2⟩ := row_inj h.2 h'.2 e
        exact Prod.ext (by omega) e2)
    refine ⟨r, h1, h2, fun i j hi hj => ?_⟩
    have := h3 (1 + nec + i) j ⟨by dsimp only; omega, hj⟩
    simp only [show 1 + nec + i - 1 - nec = i by omega] at this
    exact this (row_lt hi hj)
  | none =>
    have hg' : g.length = (1 + nec + nic) * nx := by rw [hg]; exact (C22_dense_gradient _ nx).2.2
    have hle : nx * (1 + nec) + nic * nx ≤ g.length := by rw [hg', Nat.add_mul _ nic, Nat.mul_comm nx]
    refine ⟨_, nlSlice_ok hle, by rw [(nlSlice_get (nlSlice_ok hle)).1, Nat.mul_comm], fun i j hi hj => ?_⟩
    rw [(nlSlice_get (nlSlice_ok hle)).2 _ (by rw [Nat.mul_comm nic]; exact row_lt hi hj)]
    rw [show nx * (1 + nec) + (i * nx + j) = (1 + nec + i) * nx + j by ring]
    exact matEntry_dense hg' (by omega) hj

theorem nlEqGrad_ok (z : R) {nx nec nic : Nat} {o : Option (List (Nat × Nat))}
    (hp : GradPattern (1 + nec + nic) nx (nlPat (1 + nec + nic) nx o)) {g : List R} (hg : g.length = (nlPat (1 + nec + nic) nx o).length) :
    ∃ r, nlEqGrad z nx nec o g = .ok r ∧ r.length = nx * nec ∧
      ∀ i j : Nat, i < nec → j < nx → ∃ d, r[i * nx + j]? = some d ∧ MatEntry z (nlPat (1 + nec + nic) nx o) g (1 + i) j d := by
  cases o with
  | some sp =>
    change GradPattern _ nx sp at hp
    change g.length = sp.length at hg
    have hq : NlPart (fun p => (1 ≤ p.1 ∧ p.1 < nec + 1) ∧ p.2 < nx) sp g
        ((sp.drop (nlLower sp (1, 0))).takeWhile (fun p => p.1 < nec + 1)) (g.drop (nlLower sp (1, 0))) := by
      have h0 := (nlPart_drop hp.2 hg.ge (1, 0))
      have h1 := h0.trans (nlPart_take (q := fun p => decide (p.1 < nec + 1)) (hp.2.sublist (List.drop_sublist _ _)) h0.len
        (fun a b hab hb => by simp only [decide_eq_true_eq, LexLt] at *; omega))
      refine ⟨fun n p h => ?_, fun m p h hq => h1.bwd m p h (by simp only [LexLt, decide_eq_true_eq]; omega), h1.nodup, h1.len⟩
      obtain ⟨a, m, hm, hv⟩ := h1.fwd n p h
      exact ⟨⟨by simp only [LexLt, decide_eq_true_eq] at a; omega, (hp.1 p (List.mem_of_getElem? hm)).2⟩, m, hm, hv⟩
    obtain ⟨r, h1, h2, h3⟩ := hq.scatter hg.ge (idx := fun p => (p.1 - 1) * nx + p.2) (N := nx * nec) z
      (fun p h hp' => row_lt (by omega) h.2)
      (fun p p' h h' _ e => by
        obtain ⟨e1, e2⟩ := row_inj h.2 h'.2 e
        exact Prod.ext (by omega) e2)
    refine ⟨r, h1, h2, fun i j hi hj => ?_⟩
    have := h3 (1 + i) j ⟨by dsimp only; omega, hj⟩
    simp only [show 1 + i - 1 = i by omega] at this
    exact this (row_lt hi hj)
  | none =>
    have hg' : g.length = (1 + nec + nic) * nx := by rw [hg]; exact (C22_dense_gradient _ nx).2.2
    have hle : nx + nx * nec ≤ g.length := by
      rw [hg', Nat.add_mul _ nic, Nat.add_mul 1, Nat.mul_comm nx]; omega
    refine ⟨_, nlSlice_ok hle, (nlSlice_get (nlSlice_ok hle)).1, fun i j hi hj => ?_⟩
    rw [(nlSlice_get (nlSlice_ok hle)).2 _ (row_lt hi hj)]
    rw [show nx + (i * nx + j) = (1 + i) * nx + j by ring]
    exact matEntry_dense hg' (by omega) hj

end matrix

/-! ### Runs -/

section run
variable {K σ : Type} [Field K] [LinearOrder K]

theorem wp_onSt {α : Type} {m : Run (St K σ) α} {Q : α → NlSt K σ → Prop} {E : Exn → NlSt K σ → Prop} {s : NlSt K σ} :
    wp (onSt m) Q E s ↔ wp m (fun a t => Q a { s with st := t }) (fun e t => E e { s with st := t }) s.st := by
  unfold wp onSt
  rcases m s.st with ⟨_ | _ | _ | _, t⟩ <;> rfl

theorem wp_nlGuard {α : Type} {m : Run (NlSt K σ) α} {Q : Option α → NlSt K σ → Prop} {E : Exn → NlSt K σ → Prop} {s : NlSt K σ}
    (h : wp m (fun a t => Q (some a) t) (fun e t => Q none { t with eptr := some e }) s) : wp (nlGuard m) Q E s := by
  unfold nlGuard
  rw [wp_tryCatch, wp_bind]
  exact h

/-- `G` is the problem `P` with its derivatives: it was constructed from a user's problem with the methods it still has. -/
structure GradOf [FloorRing K] (P : AProb K) (G : GProb K) : Prop where
  made : ∃ u : Udp K, construct u = .ok G.p ∧ u.gs.isSome = G.gs.isSome ∧ u.hs.isSome = G.hs.isSome
  lb : G.p.lb = P.lb
  ub : G.p.ub = P.ub
  nx : P.lb.length = P.info.nx
  nobj : G.p.nobj = P.info.nobj
  nec : G.p.nec = P.info.nec
  nic : G.p.nic = P.info.nic

variable [IsStrictOrderedRing K] [FloorRing K]

theorem GradOf.pnx {P : AProb K} {G : GProb K} (h : GradOf P G) : G.p.nx = P.info.nx := by
  rw [Problem.nx, h.lb, h.nx]

theorem GradOf.pnf {P : AProb K} {G : GProb K} (h : GradOf P G) : G.p.nf = P.info.nf := by
  rw [Problem.nf, h.nobj, h.nec, h.nic]; rfl

theorem GradOf.nobjPos {P : AProb K} {G : GProb K} (h : GradOf P G) : 0 < P.info.nobj := by
  obtain ⟨u, hu, _⟩ := h.made
  obtain ⟨_, h1, _, _, _, _, _, _, h2, _⟩ := construct_inv hu
  rw [← h.nobj, h2]; exact h1

theorem GradOf.nxPos {P : AProb K} {G : GProb K} (h : GradOf P G) : 0 < P.info.nx := by
  obtain ⟨u, hu, _⟩ := h.made
  obtain ⟨h1, _, _, _, _, h2, _⟩ := construct_inv hu
  rw [← h.nx, ← h.lb, h2]
  exact List.length_pos_iff.mpr h1.nonempty

theorem GradOf.bounds {P : AProb K} {G : GProb K} (h : GradOf P G) : P.ub.length = P.lb.length := by
  obtain ⟨u, hu, _⟩ := h.made
  obtain ⟨h1, _, _, _, _, h2, h3, _⟩ := construct_inv hu
  rw [← h.lb, ← h.ub, h2, h3]
  exact h1.len.symm

/-- The pattern is what the gradients are checked against. -/
theorem GradOf.pattern {P : AProb K} {G : GProb K} (h : GradOf P G) {sp : List (Nat × Nat)} (hs : gradientSparsity G.p G.gs = .ok sp) :
    sp = nlPat P.info.nf P.info.nx G.gs ∧ GradPattern P.info.nf P.info.nx sp ∧ sp.length = G.p.gsDim := by
  rw [← h.pnf, ← h.pnx]
  cases hg : G.gs with
  | none =>
    rw [hg] at hs
    simp only [gradientSparsity, Outcome.ok.injEq] at hs
    obtain ⟨u, hu, h1, _⟩ := h.made
    rw [hg] at h1
    obtain ⟨l, e1, e2, e3⟩ := C22_cached_gradient u G.p hu
    have : u.gs = none := by cases hu' : u.gs with
      | none => rfl
      | some _ => rw [hu'] at h1; cases h1
    rw [this] at e1
    simp only [gradientSparsity, Outcome.ok.injEq] at e1
    subst hs e1
    exact ⟨rfl, e2, e3⟩
  | some g =>
    rw [hg] at hs
    obtain ⟨e1, e2, e3⟩ := C22_gradient_sparsity_checked G.p g sp hs
    exact ⟨e1, e2, e3⟩

/-! ### What the callbacks do -/

/-- The state `s` of a run started in `s0`: nothing but the records of the calls, the counter, the log and the stored exception has changed. -/
structure NlExt (s0 s : NlSt K σ) : Prop where
  pop : s.st.pop = s0.st.pop
  evs : s0.st.evs <+: s.st.evs
  gc : s0.gcalls <+: s.gcalls
  hc : s0.hcalls <+: s.hcalls
  res : s.res = s0.res
  mlog : s.mlog = s0.mlog

/-- In the run the user's fitness function was called with `x` and returned `f`. -/
def NlCalled (s0 s : NlSt K σ) (x f : List (Fl K)) : Prop := ∃ new, s0.st.evs ++ new ++ [(x, Except.ok f)] <+: s.st.evs

/-- In the run the user's gradient was called with `x` and returned `g`. -/
def NlGraded (G : GProb K) (s0 s : NlSt K σ) (x g : List (Fl K)) : Prop :=
  ∃ new, s0.gcalls ++ new ++ [x] <+: s.gcalls ∧ G.grad (s0.gcalls ++ new) x = .ok g

/-- In the run the user's hessians were called with `x` and returned `h`. -/
def NlHessed (G : GProb K) (s0 s : NlSt K σ) (x : List (Fl K)) (h : List (List (Fl K))) : Prop :=
  ∃ new, s0.hcalls ++ new ++ [x] <+: s.hcalls ∧ G.hess (s0.hcalls ++ new) x = .ok h

/-- The exception `e` comes from the user's code called in the run: fitness, gradient or hessians threw it, or returned something of the wrong size. -/
def NlCause (P : AProb K) (G : GProb K) (s0 s : NlSt K σ) (e : Exn) : Prop :=
  (∃ new, new ≠ [] ∧ s0.st.evs ++ new <+: s.st.evs ∧ UserFault P (s0.st.evs ++ new) e) ∨
  (∃ new x, s0.gcalls ++ new ++ [x] <+: s.gcalls ∧ (G.grad (s0.gcalls ++ new) x = .error e ∨
    ∃ g, G.grad (s0.gcalls ++ new) x = .ok g ∧ g.length ≠ G.p.gsDim ∧ e = .invalidArgument)) ∨
  (∃ new x, s0.hcalls ++ new ++ [x] <+: s.hcalls ∧ (G.hess (s0.hcalls ++ new) x = .error e ∨
    ∃ h, G.hess (s0.hcalls ++ new) x = .ok h ∧ ¬ (h.length = G.p.nf ∧ h.map List.length = G.p.hsDim) ∧ e = .invalidArgument))

/-- `L` is the line of the log for the fitness `f` of the evaluation number `n`. -/
structure LineOf (sq : Fl K → Fl K) (P : AProb K) (tol : List (Fl K)) (n : Nat) (f : List (Fl K)) (L : NlLine K) : Prop where
  evals : L.evals = n
  obj : f[0]? = some L.obj
  nv : L.nv = P.info.nc - Spec.numMet 1 P.info.nec P.info.nc f tol
  viol : ∃ a b e i, Con.testCons sq true ((f.drop 1).take P.info.nec) tol = .ok (a, e) ∧
    Con.testCons sq false (f.drop (1 + P.info.nec)) (tol.drop P.info.nec) = .ok (b, i) ∧ L.viol = Fl.add e i
  feas : L.feas = true ↔ ∀ i, i < P.info.nc → Spec.Meets 1 P.info.nec f tol i

omit [Field K] [LinearOrder K] [IsStrictOrderedRing K] [FloorRing K] in
theorem NlExt.refl (s : NlSt K σ) : NlExt s s := ⟨rfl, List.prefix_rfl, List.prefix_rfl, List.prefix_rfl, rfl, rfl⟩

omit [Field K] [LinearOrder K] [IsStrictOrderedRing K] [FloorRing K] in
theorem NlExt.trans {a b c : NlSt K σ} (h : NlExt a b) (h' : NlExt b c) : NlExt a c :=
  ⟨h'.pop.trans h.pop, h.evs.trans h'.evs, h.gc.trans h'.gc, h.hc.trans h'.hc, h'.res.trans h.res, h'.mlog.trans h.mlog⟩

omit [Field K] [LinearOrder K] [IsStrictOrderedRing K] [FloorRing K] in
theorem NlCalled.mono {s0 s s' : NlSt K σ} {x f : List (Fl K)} (h : NlCalled s0 s x f) (h' : NlExt s s') : NlCalled s0 s' x f := by
  obtain ⟨n, hn⟩ := h
  exact ⟨n, hn.trans h'.evs⟩

omit [Field K] [LinearOrder K] [IsStrictOrderedRing K] [FloorRing K] in
theorem NlGraded.mono {G : GProb K} {s0 s s' : NlSt K σ} {x g : List (Fl K)} (h : NlGraded G s0 s x g) (h' : NlExt s s') : NlGraded G s0 s' x g := by
  obtain ⟨n, hn, hg⟩ := h
  exact ⟨n, hn.trans h'.gc, hg⟩

omit [Field K] [LinearOrder K] [IsStrictOrderedRing K] [FloorRing K] in
theorem NlHessed.mono {G : GProb K} {s0 s s' : NlSt K σ} {x : List (Fl K)} {g : List (List (Fl K))} (h : NlHessed G s0 s x g) (h' : NlExt s s') :
    NlHessed G s0 s' x g := by
  obtain ⟨n, hn, hg⟩ := h
  exact ⟨n, hn.trans h'.hc, hg⟩

omit [IsStrictOrderedRing K] [FloorRing K] in
theorem NlCause.mono {P : AProb K} {G : GProb K} {s0 s s' : NlSt K σ} {e : Exn} (h : NlCause P G s0 s e) (h' : NlExt s s') : NlCause P G s0 s' e := by
  rcases h with ⟨n, h1, h2, h3⟩ | ⟨n, x, h1, h2⟩ | ⟨n, x, h1, h2⟩
  · exact Or.inl ⟨n, h1, h2.trans h'.evs, h3⟩
  · exact Or.inr (Or.inl ⟨n, x, h1.trans h'.gc, h2⟩)
  · exact Or.inr (Or.inr ⟨n, x, h1.trans h'.hc, h2⟩)

omit [IsStrictOrderedRing K] [FloorRing K] in
theorem wp_nlEval {P : AProb K} {G : GProb K} {s0 s : NlSt K σ} {x : List (Fl K)} {Q : List (Fl K) → NlSt K σ → Prop} {E : Exn → NlSt K σ → Prop}
    (hext : NlExt s0 s) (hx : x.length = P.info.nx)
    (hq : ∀ f s', f.length = P.info.nf → NlCalled s0 s' x f → NlExt s s' → s'.eptr = s.eptr → s'.count = s.count → s'.log = s.log →
      s'.st.evs = s.st.evs ++ [(x, .ok f)] → Q f s')
    (he : ∀ e s' r, NlCause P G s0 s' e → NlExt s s' → s'.count = s.count → s'.log = s.log → s'.st.evs = s.st.evs ++ [(x, r)] → E e s') :
    wp (onSt (eval P x)) Q E s := by
  rw [wp_onSt]
  obtain ⟨n, hn⟩ := hext.evs
  refine wp_eval hx (fun f _ hf => ?_) (fun e r hu => ?_)
  · refine hq f _ hf ⟨n, ?_⟩ ⟨rfl, List.prefix_append _ _, List.prefix_rfl, List.prefix_rfl, rfl, rfl⟩ rfl rfl rfl rfl
    rw [hn]
  · refine he e _ r (Or.inl ⟨n ++ [(x, r)], by simp, ?_, ?_⟩) ⟨rfl, List.prefix_append _ _, List.prefix_rfl, List.prefix_rfl, rfl, rfl⟩ rfl rfl rfl
    · rw [← List.append_assoc, hn]
    · rw [← List.append_assoc, hn]; exact hu

omit [IsStrictOrderedRing K] [FloorRing K] in
theorem wp_nlGradient {P : AProb K} {G : GProb K} {s0 s : NlSt K σ} {x : List (Fl K)} {Q : List (Fl K) → NlSt K σ → Prop} {E : Exn → NlSt K σ → Prop}
    (hext : NlExt s0 s) (hx : x.length = G.p.nx) (hg : G.hasGrad = true)
    (hq : ∀ g s', g.length = G.p.gsDim → NlGraded G s0 s' x g → NlExt s s' → s'.eptr = s.eptr → s'.count = s.count → s'.log = s.log → s'.st = s.st → Q g s')
    (he : ∀ e s', NlCause P G s0 s' e → NlExt s s' → s'.count = s.count → s'.log = s.log → s'.st = s.st → E e s') : wp (nlGradient G x) Q E s := by
  obtain ⟨n, hn⟩ := hext.gc
  have hE : NlExt s { s with gcalls := s.gcalls ++ [x] } := ⟨rfl, List.prefix_rfl, List.prefix_append _ _, List.prefix_rfl, rfl, rfl⟩
  unfold wp nlGradient
  rw [if_neg (not_not.mpr hx), if_neg (by rw [hg]; simp)]
  cases h : G.grad s.gcalls x with
  | error e =>
    exact he e _ (Or.inr (Or.inl ⟨n, x, by rw [hn], Or.inl (by rw [hn]; exact h)⟩)) hE rfl rfl rfl
  | ok g =>
    by_cases hl : g.length = G.p.gsDim
    · simp only [if_neg (not_not.mpr hl)]
      exact hq g _ hl ⟨n, by rw [hn], by rw [hn]; exact h⟩ hE rfl rfl rfl rfl
    · simp only [if_pos hl]
      exact he _ _ (Or.inr (Or.inl ⟨n, x, by rw [hn], Or.inr ⟨g, by rw [hn]; exact h, hl, rfl⟩⟩)) hE rfl rfl rfl

omit [IsStrictOrderedRing K] [FloorRing K] in
theorem wp_ipHessians {P : AProb K} {G : GProb K} {s0 s : NlSt K σ} {x : List (Fl K)} {Q : List (List (Fl K)) → NlSt K σ → Prop}
    {E : Exn → NlSt K σ → Prop} (hext : NlExt s0 s) (hx : x.length = G.p.nx) (hg : G.hasHess = true)
    (hq : ∀ h s', h.length = G.p.nf → h.map List.length = G.p.hsDim → NlHessed G s0 s' x h → NlExt s s' → s'.eptr = s.eptr → s'.count = s.count →
      s'.log = s.log → s'.st = s.st → Q h s')
    (he : ∀ e s', NlCause P G s0 s' e → NlExt s s' → s'.count = s.count → s'.log = s.log → s'.st = s.st → E e s') : wp (ipHessians G x) Q E s := by
  obtain ⟨n, hn⟩ := hext.hc
  have hE : NlExt s { s with hcalls := s.hcalls ++ [x] } := ⟨rfl, List.prefix_rfl, List.prefix_rfl, List.prefix_append _ _, rfl, rfl⟩
  unfold wp ipHessians
  rw [if_neg (not_not.mpr hx), if_neg (by rw [hg]; simp)]
  cases h : G.hess s.hcalls x with
  | error e =>
    exact he e _ (Or.inr (Or.inr ⟨n, x, by rw [hn], Or.inl (by rw [hn]; exact h)⟩)) hE rfl rfl rfl
  | ok g =>
    have bad : ¬ (g.length = G.p.nf ∧ g.map List.length = G.p.hsDim) →
        E .invalidArgument { s with hcalls := s.hcalls ++ [x] } :=
      fun hb => he _ _ (Or.inr (Or.inr ⟨n, x, by rw [hn], Or.inr ⟨g, by rw [hn]; exact h, hb, rfl⟩⟩)) hE rfl rfl rfl
    unfold checkHessiansVector
    by_cases hl : g.length = G.p.nf
    · by_cases hl' : g.map List.length = G.p.hsDim
      · simp only [if_neg (not_not.mpr hl), if_neg (not_not.mpr hl')]
        exact hq g _ hl hl' ⟨n, by rw [hn], by rw [hn]; exact h⟩ hE rfl rfl rfl rfl
      · simp only [if_neg (not_not.mpr hl), if_pos hl']
        exact bad (fun hb => hl' hb.2)
    · simp only [if_pos hl]
      exact bad (fun hb => hl hb.1)

omit [FloorRing K] in
theorem nlLine_ok (sq : Fl K → Fl K) {P : AProb K} {tol f : List (Fl K)} (n : Nat) (hn : P.info.nobj = 1) (hf : f.length = P.info.nf)
    (ht : tol.length = P.info.nc) : ∃ L, nlLine sq P tol n f = .ok L ∧ LineOf sq P tol (n + 1) f L := by
  have hf' : f.length = 1 + P.info.nec + P.info.nic := by rw [hf, Info.nf, hn]
  have ht' : tol.length = P.info.nec + P.info.nic := ht
  obtain ⟨e, he, -, -⟩ := Con.testCons_spec sq true ((f.drop 1).take P.info.nec) tol (by simp; omega)
  obtain ⟨i, hi, -, -⟩ := Con.testCons_spec sq false (f.drop (1 + P.info.nec)) (tol.drop P.info.nec) (by simp; omega)
  obtain ⟨r, hr, hrm⟩ := C14_feasible_iff_within sq 1 P.info.nec P.info.nic tol f hf' ht'
  have h0 : 0 < f.length := by omega
  have hc := Con.cnt_split 1 P.info.nec P.info.nic f tol hf' ht'
  refine ⟨⟨n + 1, f[0], P.info.nc - Con.cnt true ((f.drop 1).take P.info.nec) tol - Con.cnt false (f.drop (1 + P.info.nec)) (tol.drop P.info.nec),
      Fl.add (sq e) (sq i), r⟩, ?_, ?_⟩
  · unfold nlLine
    rw [he, hi, hn, hr, Outcome.get_of_lt h0]
    rfl
  · refine ⟨rfl, List.getElem?_eq_getElem h0, ?_, ⟨_, _, _, _, he, hi, rfl⟩, hrm⟩
    show _ - _ - _ = _
    rw [show P.info.nc = P.info.nec + P.info.nic from rfl, ← hc]; omega

/-- One more evaluation is counted: every `verb` evaluations there is a line in the log. -/
def LogStep (sq : Fl K → Fl K) (P : AProb K) (verb : Nat) (f : List (Fl K)) (s s' : NlSt K σ) : Prop :=
  s'.count = s.count + 1 ∧
    ((verb = 0 ∨ s.count % verb ≠ 0) ∧ s'.log = s.log ∨
      (verb ≠ 0 ∧ s.count % verb = 0) ∧ ∃ L, LineOf sq P s.st.pop.tol (s.count + 1) f L ∧ s'.log = s.log ++ [L])

omit [FloorRing K] in
theorem wp_nlCount {sq : Fl K → Fl K} {P : AProb K} {verb : Nat} {s : NlSt K σ} {f : List (Fl K)} {Q : Unit → NlSt K σ → Prop}
    {E : Exn → NlSt K σ → Prop} (hn : P.info.nobj = 1) (hf : f.length = P.info.nf) (ht : s.st.pop.tol.length = P.info.nc)
    (hq : ∀ s', NlExt s s' → s'.eptr = s.eptr → s'.st = s.st → s'.gcalls = s.gcalls → s'.hcalls = s.hcalls → LogStep sq P verb f s s' → Q () s') :
    wp (nlCount sq P verb f) Q E s := by
  unfold nlCount
  rw [wp_bind, wp_get]
  by_cases hc : verb ≠ 0 ∧ s.count % verb = 0
  · rw [if_pos hc]
    obtain ⟨L, h1, h2⟩ := nlLine_ok sq (tol := s.st.pop.tol) s.count hn hf ht
    rw [wp_bind, h1, wp_lift_ok, wp_bind, wp_modify]
    dsimp only
    rw [wp_modify]
    exact hq _ ⟨rfl, List.prefix_rfl, List.prefix_rfl, List.prefix_rfl, rfl, rfl⟩ rfl rfl rfl rfl ⟨rfl, Or.inr ⟨hc, L, h2, rfl⟩⟩
  · rw [if_neg hc]
    show wp (Run.modify _) _ _ _
    rw [wp_modify]
    refine hq _ ⟨rfl, List.prefix_rfl, List.prefix_rfl, List.prefix_rfl, rfl, rfl⟩ rfl rfl rfl rfl ⟨rfl, Or.inl ⟨?_, rfl⟩⟩
    by_cases h0 : verb = 0
    · exact Or.inl h0
    · exact Or.inr (fun h => hc ⟨h0, h⟩)

end run

end Verif.Props
