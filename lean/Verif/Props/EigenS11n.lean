import Verif.Model.EigenS11n
import Mathlib.Tactic.Ring
import Mathlib.Tactic.Linarith

/-!
# Saving and loading an Eigen matrix
-/

set_option autoImplicit false
set_option linter.unusedSimpArgs false

namespace Verif.Props

open Verif Verif.S11n Verif.EigenS11n

variable {α : Type}

theorem es_mem {r c i j : Nat} : (i, j) ∈ cells r c ↔ i < r ∧ j < c := by
  simp [cells]

theorem es_lt {r c i j : Nat} (hi : i < r) (hj : j < c) : j * r + i < r * c := by
  calc j * r + i < j * r + r := by omega
    _ = (j + 1) * r := by ring
    _ ≤ c * r := Nat.mul_le_mul_right r hj
    _ = r * c := Nat.mul_comm _ _

/-- the cells of `m` with these indices were saved as `ts`; loading them gives a matrix that agrees with `m` there and is unchanged elsewhere -/
theorem es_loop (C : Codec α) (hC : ∀ (a o : α) (rest : List Tok), C.load o (C.save a ++ rest) = .ok a rest) {m : EMat α} (hm : m.Valid) :
    ∀ (l : List (Nat × Nat)), (∀ p ∈ l, p.1 < m.rows ∧ p.2 < m.cols) → ∃ ts, saveCells C m l = .ok ts ∧
      ∀ (d : List α) (rest : List Tok), d.length = m.data.length → ∃ d', d'.length = m.data.length ∧
        loadCells C ⟨m.rows, m.cols, d⟩ l (ts ++ rest) = .ok (.ok ⟨m.rows, m.cols, d'⟩ rest) ∧
        ∀ k : Nat, (d[k]? = m.data[k]? ∨ ∃ p ∈ l, k = p.2 * m.rows + p.1) → d'[k]? = m.data[k]?
  | [], _ => ⟨[], rfl, fun d rest hd => ⟨d, hd, rfl, fun k hk => by
      rcases hk with hk | ⟨p, hp, -⟩
      · exact hk
      · cases hp⟩⟩
  | (i, j) :: l, h => by
    obtain ⟨ts, h1, h2⟩ := es_loop C hC hm l (fun p hp => h p (List.mem_cons_of_mem _ hp))
    have hij : j * m.rows + i < m.data.length := by
      have := h (i, j) List.mem_cons_self
      rw [show m.data.length = m.rows * m.cols from hm]
      exact es_lt this.1 this.2
    refine ⟨C.save m.data[j * m.rows + i] ++ ts, by simp only [saveCells, Outcome.get_of_lt hij, h1, Outcome.bind_ok], ?_⟩
    intro d rest hd
    have hij' : j * m.rows + i < d.length := by omega
    obtain ⟨d', h3, h4, h5⟩ := h2 (d.set (j * m.rows + i) m.data[j * m.rows + i]) rest (by simpa using hd)
    refine ⟨d', h3, ?_, ?_⟩
    · simp only [loadCells, Outcome.get_of_lt hij', Outcome.bind_ok, List.append_assoc, hC, Outcome.set_of_lt hij']
      exact h4
    · intro k hk
      apply h5
      by_cases hkk : j * m.rows + i = k
      · left
        subst hkk
        rw [List.getElem?_set_self hij', List.getElem?_eq_getElem hij]
      · rw [List.getElem?_set_ne hkk]
        rcases hk with hk | ⟨p, hp, hk⟩
        · exact Or.inl hk
        · rcases List.mem_cons.mp hp with rfl | hp
          · exact absurd hk.symm hkk
          · exact Or.inr ⟨p, hp, hk⟩

/-- C163: saving a matrix never reads outside of it, and loading what was saved, into any matrix and whatever follows in the archive, gives the matrix
saved and leaves what follows. -/
theorem C163_round_trip (C : Codec α) (hC : ∀ (a o : α) (rest : List Tok), C.load o (C.save a ++ rest) = .ok a rest) (z : α) {m : EMat α}
    (hm : m.Valid) : ∃ ts, EigenS11n.save C m = .ok ts ∧
      ∀ (o : EMat α) (rest : List Tok), EigenS11n.load C z o (ts ++ rest) = .ok (.ok m rest) := by
  obtain ⟨ts, h1, h2⟩ := es_loop C hC hm (cells m.rows m.cols) (fun p hp => es_mem.mp hp)
  refine ⟨natC.save m.rows ++ natC.save m.cols ++ ts, by simp only [EigenS11n.save, h1, Outcome.bind_ok], ?_⟩
  intro o rest
  have hlen : (resize z o m.rows m.cols).data.length = m.data.length := by
    rw [show m.data.length = m.rows * m.cols from hm]
    unfold resize
    by_cases h : o.data.length = m.rows * m.cols
    · simp only [h, if_true]
    · simp only [h, if_false, List.length_replicate]
  obtain ⟨d', h3, h4, h5⟩ := h2 (resize z o m.rows m.cols).data rest hlen
  have hd : d' = m.data := by
    apply List.ext_getElem?
    intro k
    by_cases hk : k < m.data.length
    · apply h5 k
      right
      have hk' : k < m.rows * m.cols := by rw [← show m.data.length = m.rows * m.cols from hm]; exact hk
      have hr : 0 < m.rows := by
        rcases Nat.eq_zero_or_pos m.rows with h | h
        · rw [h, Nat.zero_mul] at hk'; omega
        · exact h
      refine ⟨(k % m.rows, k / m.rows), es_mem.mpr ⟨Nat.mod_lt _ hr, ?_⟩, (Nat.div_add_mod' k m.rows).symm⟩
      exact Nat.div_lt_of_lt_mul hk'
    · rw [List.getElem?_eq_none (by omega), List.getElem?_eq_none (by omega)]
  rw [hd] at h4
  exact h4

/-- C163: an archive that ends before the second dimension leaves the matrix as it was. -/
theorem C163_short (C : Codec α) (z : α) (o : EMat α) (n : Nat) :
    EigenS11n.load C z o [] = .ok (.fail o) ∧ EigenS11n.load C z o [.idx n] = .ok (.fail o) := ⟨rfl, rfl⟩

/-- a matrix with two rows and three columns, and numbers as elements -/
example : (⟨2, 3, [1, 4, 2, 5, 3, 6]⟩ : EMat Nat).Valid ∧ (∀ (a o : Nat) (rest : List Tok), natC.load o (natC.save a ++ rest) = .ok a rest) ∧
    EigenS11n.save natC ⟨2, 3, [1, 4, 2, 5, 3, 6]⟩ = .ok ([2, 3, 1, 2, 3, 4, 5, 6].map Tok.idx) := ⟨rfl, fun _ _ _ => rfl, rfl⟩

end Verif.Props
