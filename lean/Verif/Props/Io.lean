import Verif.Model.Io
import Mathlib.Tactic.Ring
import Mathlib.Order.Lattice

/-!
# The text output: tables are aligned, long containers are cut
-/

set_option autoImplicit false
set_option linter.unusedSimpArgs false

namespace Verif.Spec

open Verif.Io

/-- the greatest length of a cell in column `k` of these rows -/
def colWidth (rows : List (List Str)) (k : Nat) : Nat := (rows.map (fun r => (r.getD k []).length)).foldr max 0

/-- where column `k` begins, after the indentation: every column has two characters more than its greatest cell -/
def colStart (rows : List (List Str)) (k : Nat) : Nat := ((List.range k).map (fun j => colWidth rows j + 2)).sum

end Verif.Spec

namespace Verif.Props

open Verif Verif.Io Verif.Spec

theorem io_widen : ∀ (cs : List Str) (ss : List Nat), cs.length = ss.length →
    widen cs ss = .ok (List.zipWith (fun c s => max c.length s) cs ss)
  | [], [], _ => rfl
  | _ :: cs, _ :: ss, h => by
    simp only [widen, io_widen cs ss (by simpa using h), Outcome.bind_ok, List.zipWith_cons_cons]

theorem io_colWidth_le {rows : List (List Str)} {r : List Str} (hr : r ∈ rows) (k : Nat) : (r.getD k []).length ≤ colWidth rows k := by
  induction rows with
  | nil => cases hr
  | cons a as ih =>
    simp only [colWidth, List.map_cons, List.foldr_cons]
    rcases List.mem_cons.mp hr with rfl | h
    · exact le_max_left _ _
    · exact (ih h).trans (le_max_right _ _)

theorem io_colWidth_append (rows : List (List Str)) (r : List Str) (k : Nat) :
    colWidth (rows ++ [r]) k = max (r.getD k []).length (colWidth rows k) := by
  induction rows with
  | nil => simp [colWidth]
  | cons a as ih =>
    simp only [colWidth, List.cons_append, List.map_cons, List.foldr_cons] at ih ⊢
    rw [ih]
    exact max_left_comm _ _ _

theorem io_colWidth_bound {rows : List (List Str)} {B : Nat} (h : ∀ r ∈ rows, ∀ c ∈ r, c.length < B) (hB : 0 < B) (k : Nat) : colWidth rows k < B := by
  induction rows with
  | nil => simpa [colWidth] using hB
  | cons a as ih =>
    simp only [colWidth, List.map_cons, List.foldr_cons]
    refine max_lt ?_ (ih fun r hr => h r (List.mem_cons_of_mem _ hr))
    rw [List.getD_eq_getElem?_getD]
    cases hk : a[k]? with
    | none => simpa using hB
    | some c => simpa using h a List.mem_cons_self c (List.mem_of_getElem? hk)

/-- what holds of a table however it was filled -/
structure IoInv (t : Table) : Prop where
  rows : ∀ r ∈ t.rows, r.length = t.headers.length
  sizes : t.sizes = (List.range t.headers.length).map (colWidth (t.headers :: t.rows))

theorem io_new (h : List Str) (i : Str) : IoInv (Table.new h i) := by
  refine ⟨fun r hr => by simp [Table.new] at hr, ?_⟩
  apply List.ext_getElem?
  intro k
  simp only [Table.new, List.getElem?_map]
  by_cases hk : k < h.length
  · simp [hk, colWidth]
  · simp [List.getElem?_eq_none (Nat.le_of_not_lt hk), hk]

theorem io_addRow {t t' : Table} {r : List Str} (hi : IoInv t) (h : t.addRow r = .ok t') :
    IoInv t' ∧ r.length = t.headers.length ∧ t'.indent = t.indent ∧ t'.headers = t.headers ∧ t'.rows = t.rows ++ [r] := by
  unfold Table.addRow at h
  by_cases hr : r.length = t.headers.length
  · have hs : r.length = t.sizes.length := by rw [hi.sizes]; simpa using hr
    simp only [hr, ne_eq, not_true_eq_false, if_false, io_widen r t.sizes hs, Outcome.bind_ok] at h
    cases h
    refine ⟨⟨?_, ?_⟩, hr, rfl, rfl, rfl⟩
    · intro q hq
      rcases List.mem_append.mp hq with h1 | h1
      · exact hi.rows q h1
      · rw [List.mem_singleton.mp h1]; exact hr
    · show List.zipWith _ r t.sizes = (List.range t.headers.length).map (colWidth (t.headers :: (t.rows ++ [r])))
      apply List.ext_getElem?
      intro k
      rw [hi.sizes, List.getElem?_zipWith, List.getElem?_map, List.getElem?_map]
      by_cases hk : k < t.headers.length
      · rw [List.getElem?_range hk, List.getElem?_eq_getElem (hr ▸ hk)]
        simp only [Option.map_some, Option.some.injEq]
        rw [← List.cons_append, io_colWidth_append, List.getD_eq_getElem?_getD, List.getElem?_eq_getElem (hr ▸ hk), Option.getD_some]
      · rw [List.getElem?_eq_none (by omega)]
        simp [hk]
  · simp only [hr, ne_eq, not_false_eq_true, if_true] at h; cases h

theorem io_addRows : ∀ (rs : List (List Str)) {t t' : Table}, IoInv t → t.addRows rs = .ok t' →
    IoInv t' ∧ (∀ r ∈ rs, r.length = t.headers.length) ∧ t'.indent = t.indent ∧ t'.headers = t.headers ∧ t'.rows = t.rows ++ rs
  | [], t, t', hi, h => by
    cases h
    exact ⟨hi, by simp, rfl, rfl, by simp⟩
  | r :: rs, t, t', hi, h => by
    simp only [Table.addRows] at h
    cases h1 : t.addRow r with
    | ok t1 =>
      rw [h1, Outcome.bind_ok] at h
      obtain ⟨a1, a2, a3, a4, a5⟩ := io_addRow hi h1
      obtain ⟨b1, b2, b3, b4, b5⟩ := io_addRows rs a1 h
      refine ⟨b1, ?_, b3.trans a3, b4.trans a4, by rw [b5, a5]; simp⟩
      intro q hq
      rcases List.mem_cons.mp hq with rfl | hq
      · exact a2
      · rw [b2 q hq, a4]
    | throws e => rw [h1] at h; cases h
    | ub => rw [h1] at h; cases h
    | nofuel => rw [h1] at h; cases h

theorem io_padCell {c : Str} {s : Nat} (h1 : c.length ≤ s) (h2 : s + 2 < 2 ^ 63) : padCell c s = .ok (c ++ List.replicate (s + 2 - c.length) ' ') := by
  have e : (s + 2 ^ 64 - c.length + 2) % 2 ^ 64 = s + 2 - c.length := by
    rw [show s + 2 ^ 64 - c.length + 2 = (s + 2 - c.length) + 2 ^ 64 by omega, Nat.add_mod_right, Nat.mod_eq_of_lt (by omega)]
  simp only [padCell, e, fill, if_neg (show ¬2 ^ 63 ≤ s + 2 - c.length by omega), Outcome.bind_ok]

theorem io_printRow : ∀ (cs : List Str) (ss : List Nat), cs.length = ss.length → (∀ k, (cs.getD k []).length ≤ ss.getD k 0) → (∀ s ∈ ss, s + 2 < 2 ^ 63) →
    printRow cs ss = .ok (List.zipWith (fun c s => c ++ List.replicate (s + 2 - c.length) ' ') cs ss).flatten
  | [], [], _, _, _ => rfl
  | c :: cs, s :: ss, h, hw, hb => by
    have h0 : c.length ≤ s := by simpa using hw 0
    have ht : ∀ k, (cs.getD k []).length ≤ ss.getD k 0 := fun k => by simpa using hw (k + 1)
    simp only [printRow, io_padCell h0 (hb s List.mem_cons_self), Outcome.bind_ok,
      io_printRow cs ss (by simpa using h) ht (fun q hq => hb q (List.mem_cons_of_mem _ hq)), List.zipWith_cons_cons, List.flatten_cons]

theorem io_printRule : ∀ (ss : List Nat), (∀ s ∈ ss, s + 2 < 2 ^ 63) → printRule ss = .ok (List.replicate (ss.map (· + 2)).sum '-')
  | [], _ => rfl
  | s :: ss, hb => by
    have h0 := hb s List.mem_cons_self
    have e : (s + 2) % 2 ^ 64 = s + 2 := Nat.mod_eq_of_lt (by omega)
    simp only [printRule, e, fill, if_neg (show ¬2 ^ 63 ≤ s + 2 by omega), Outcome.bind_ok,
      io_printRule ss (fun q hq => hb q (List.mem_cons_of_mem _ hq)), List.map_cons, List.sum_cons,
      List.replicate_append_replicate]

theorem io_block : ∀ (cs : List Str) (ss : List Nat) (k : Nat), cs.length = ss.length → (∀ k, (cs.getD k []).length ≤ ss.getD k 0) → k < ss.length →
    ((List.zipWith (fun c s => c ++ List.replicate (s + 2 - c.length) ' ') cs ss).flatten.drop ((ss.take k).map (· + 2)).sum).take (ss.getD k 0 + 2) =
      cs.getD k [] ++ List.replicate (ss.getD k 0 + 2 - (cs.getD k []).length) ' '
  | [], ss, k, h, _, hk => absurd hk (by rw [← h]; simp)
  | c :: cs, s :: ss, k, h, hw, hk => by
    have h0 : c.length ≤ s := by simpa using hw 0
    have ht : ∀ k, (cs.getD k []).length ≤ ss.getD k 0 := fun k => by simpa using hw (k + 1)
    have hlen : (c ++ List.replicate (s + 2 - c.length) ' ').length = s + 2 := by simp; omega
    cases k with
    | zero =>
      simp only [List.zipWith_cons_cons, List.flatten_cons, List.take_zero, List.map_nil, List.sum_nil, List.drop_zero, List.getD_cons_zero]
      rw [List.take_append_of_le_length (by omega), List.take_of_length_le (by omega)]
    | succ k =>
      simp only [List.zipWith_cons_cons, List.flatten_cons, List.take_succ_cons, List.map_cons, List.sum_cons, List.getD_cons_succ]
      rw [List.drop_append, List.drop_eq_nil_of_le (by omega), List.nil_append, hlen, Nat.add_sub_cancel_left]
      exact io_block cs ss k (by simpa using h) ht (by simpa using hk)

theorem io_blockLen : ∀ (cs : List Str) (ss : List Nat), cs.length = ss.length → (∀ k, (cs.getD k []).length ≤ ss.getD k 0) →
    (List.zipWith (fun c s => c ++ List.replicate (s + 2 - c.length) ' ') cs ss).flatten.length = (ss.map (· + 2)).sum
  | [], [], _, _ => rfl
  | c :: cs, s :: ss, h, hw => by
    have h0 : c.length ≤ s := by simpa using hw 0
    have ht : ∀ k, (cs.getD k []).length ≤ ss.getD k 0 := fun k => by simpa using hw (k + 1)
    rw [List.zipWith_cons_cons, List.flatten_cons, List.length_append, io_blockLen cs ss (by simpa using h) ht]
    simp only [List.length_append, List.length_replicate, List.map_cons, List.sum_cons]
    omega

theorem io_printRows (t : Table) (f : List Str → Str) : ∀ (rs : List (List Str)), (∀ r ∈ rs, printRow r t.sizes = .ok (f r)) →
    printRows t rs = .ok ((rs.map (fun r => t.indent ++ f r ++ ['\n'])).flatten)
  | [], _ => rfl
  | r :: rs, h => by
    simp only [printRows, h r List.mem_cons_self, io_printRows t f rs (fun q hq => h q (List.mem_cons_of_mem _ hq)), Outcome.bind_ok, List.map_cons,
      List.flatten_cons]

/-- C161: a row with the wrong number of cells is refused, every other row is accepted. -/
theorem C161_rows (headers : List Str) (indent : Str) (rows : List (List Str)) {t : Table} (h : (Table.new headers indent).addRows rows = .ok t)
    (r : List Str) : (r.length ≠ headers.length → t.addRow r = .throws .invalidArgument) ∧
      (r.length = headers.length → ∃ t', t.addRow r = .ok t' ∧ t'.rows = rows ++ [r]) := by
  obtain ⟨hi, -, -, hh, hr⟩ := io_addRows rows (io_new headers indent) h
  replace hh : t.headers = headers := hh
  replace hr : t.rows = rows := by simpa [Table.new] using hr
  constructor
  · intro hne
    simp only [Table.addRow, hh, hne, ne_eq, not_false_eq_true, if_true]
  · intro he
    have hs : r.length = t.sizes.length := by rw [hi.sizes, hh]; simpa using he
    simp only [Table.addRow, hh, he, ne_eq, not_true_eq_false, if_false, io_widen r t.sizes hs, Outcome.bind_ok]
    exact ⟨_, rfl, by simp [hr]⟩

/-- C161: a table prints as lines of the same length: the headers, a line of dashes, the rows. Each line begins with the indentation; column `k` begins
at the same place in all of them, with the cell and at least two blanks after it. -/
theorem C161_aligned (headers : List Str) (indent : Str) (rows : List (List Str)) {t : Table} (h : (Table.new headers indent).addRows rows = .ok t)
    (hb : ∀ r ∈ headers :: rows, ∀ c ∈ r, c.length < 2 ^ 63 - 2) :
    ∃ (top : Str) (body : List Str), t.print = .ok ((top :: (indent ++ List.replicate (colStart (headers :: rows) headers.length) '-') :: body).map (· ++ ['\n'])).flatten ∧
      body.length = rows.length ∧
      ∀ (i : Nat) (r : List Str) (l : Str), (headers :: rows)[i]? = some r → (top :: body)[i]? = some l →
        l.length = indent.length + colStart (headers :: rows) headers.length ∧ l.take indent.length = indent ∧
        ∀ (k : Nat) (c : Str), r[k]? = some c →
          (l.drop (indent.length + colStart (headers :: rows) k)).take (colWidth (headers :: rows) k + 2) =
            c ++ List.replicate (colWidth (headers :: rows) k + 2 - c.length) ' ' ∧ c.length ≤ colWidth (headers :: rows) k := by
  obtain ⟨hi, hrl, hin, hh, hr⟩ := io_addRows rows (io_new headers indent) h
  replace hh : t.headers = headers := hh
  replace hin : t.indent = indent := hin
  replace hr : t.rows = rows := by simpa [Table.new] using hr
  replace hrl : ∀ r ∈ rows, r.length = headers.length := hrl
  have hs := hi.sizes
  rw [hh, hr] at hs
  have hsl : t.sizes.length = headers.length := by rw [hs]; simp
  have hbound : ∀ s ∈ t.sizes, s + 2 < 2 ^ 63 := by
    intro s hsm
    rw [hs] at hsm
    obtain ⟨k, -, rfl⟩ := List.mem_map.mp hsm
    have := io_colWidth_bound hb (by norm_num) k
    omega
  have hget : ∀ k, k < headers.length → t.sizes.getD k 0 = colWidth (headers :: rows) k := by
    intro k hk
    rw [hs, List.getD_eq_getElem?_getD, List.getElem?_map, List.getElem?_range hk]
    rfl
  have hlen : ∀ r ∈ headers :: rows, r.length = t.sizes.length := by
    intro r hm
    rw [hsl]
    rcases List.mem_cons.mp hm with rfl | hm
    · rfl
    · exact hrl r hm
  have hw : ∀ r ∈ headers :: rows, ∀ k, (r.getD k []).length ≤ t.sizes.getD k 0 := by
    intro r hm k
    by_cases hk : k < headers.length
    · rw [hget k hk]; exact io_colWidth_le hm k
    · have : r.length ≤ k := by rw [hlen r hm, hsl]; omega
      rw [List.getD_eq_getElem?_getD, List.getElem?_eq_none this]; simp
  have hp := fun r hm => io_printRow r t.sizes (hlen r hm) (hw r hm) hbound
  generalize hf : (fun r : List Str => (List.zipWith (fun (c : Str) (s : Nat) => c ++ List.replicate (s + 2 - c.length) ' ') r t.sizes).flatten) = f
  have hfr : ∀ r, (List.zipWith (fun (c : Str) (s : Nat) => c ++ List.replicate (s + 2 - c.length) ' ') r t.sizes).flatten = f r := fun r => by rw [← hf]
  simp only [hfr] at hp
  have hstart : ∀ k, k ≤ headers.length → ((t.sizes.take k).map (· + 2)).sum = colStart (headers :: rows) k := by
    intro k hk
    rw [hs, ← List.map_take, List.take_range, Nat.min_eq_left hk, List.map_map]
    rfl
  have hall : (t.sizes.map (· + 2)).sum = colStart (headers :: rows) headers.length := by
    rw [← hstart _ le_rfl, List.take_of_length_le (by omega)]
  refine ⟨indent ++ f headers, rows.map (fun r => indent ++ f r), ?_, by simp, ?_⟩
  · have h1 := io_printRows t f rows (fun r hm => hp r (List.mem_cons_of_mem _ hm))
    simp only [Table.print, hh, hr, hp headers List.mem_cons_self, io_printRule _ hbound, h1, Outcome.bind_ok, hin, hall, List.map_cons, List.flatten_cons,
      List.map_map]
    simp [Function.comp_def]
  · intro i r l h1 h2
    have hm : r ∈ headers :: rows := List.mem_of_getElem? h1
    have hl : l = indent ++ f r := by
      have : (indent ++ f headers) :: rows.map (fun r => indent ++ f r) = (headers :: rows).map (fun r => indent ++ f r) := rfl
      rw [this, List.getElem?_map, h1] at h2
      exact (Option.some.inj h2).symm
    subst hl
    refine ⟨?_, by simp, ?_⟩
    · rw [List.length_append, ← hfr, io_blockLen r t.sizes (hlen r hm) (hw r hm), hall]
    · intro k c hc
      have hk : k < headers.length := by rw [← hsl, ← hlen r hm]; exact (List.getElem?_eq_some_iff.mp hc).1
      have hcD : r.getD k [] = c := by rw [List.getD_eq_getElem?_getD, hc]; rfl
      have := io_block r t.sizes k (hlen r hm) (hw r hm) (by omega)
      rw [hstart k hk.le, hget k hk, hcD, hfr] at this
      refine ⟨?_, hcD ▸ io_colWidth_le hm k⟩
      rw [List.drop_append, List.drop_eq_nil_of_le (by omega), List.nil_append, Nat.add_sub_cancel_left]
      exact this

/-- the hypotheses are met: two columns, two rows -/
example : ∃ t, (Table.new ["Gen".toList, "Best".toList] [' ']).addRows [["1".toList, "0.125".toList], ["1000".toList, "0".toList]] = .ok t ∧
    t.print = .ok (" Gen   Best   \n -------------\n 1     0.125  \n 1000  0      \n".toList) := ⟨_, rfl, by decide⟩

/-! ## vectors and maps -/

theorem io_rangeLoop : ∀ (xs : List Str) (x : Str) (c : Nat), c ≤ 5 → rangeLoop c x xs =
    if xs.length + 1 + c ≤ 5 then List.intercalate ", ".toList (x :: xs)
    else ((((x :: xs).take (5 - c)).map (· ++ ", ".toList)).flatten ++ "... ".toList)
  | xs, x, c, hc => by
    unfold rangeLoop
    by_cases h5 : c = 5
    · subst h5
      rw [if_pos rfl, if_neg (by omega)]; simp
    · rw [if_neg h5]
      cases xs with
      | nil => rw [if_pos (by simp; omega)]; simp [List.intercalate]
      | cons y ys =>
        simp only []
        rw [io_rangeLoop ys y (c + 1) (by omega)]
        by_cases hl : (y :: ys).length + 1 + c ≤ 5
        · rw [if_pos (by simp at hl ⊢; omega), if_pos hl]
          simp [List.intercalate]
        · rw [if_neg (by simp at hl ⊢; omega), if_neg hl]
          obtain ⟨d, hd⟩ : ∃ d, 5 - c = d + 1 := ⟨5 - c - 1, by omega⟩
          rw [show 5 - (c + 1) = d by omega, hd, List.take_succ_cons, List.map_cons, List.flatten_cons]
          simp

/-- C162: a vector is written with all its elements if there are at most five, and otherwise with the first five and an ellipsis, whatever the others
are. -/
theorem C162_vector (xs : List Str) :
    (xs.length ≤ 5 → streamRange xs = "[".toList ++ List.intercalate ", ".toList xs ++ "]".toList) ∧
    (5 < xs.length → streamRange xs = "[".toList ++ List.intercalate ", ".toList (xs.take 5 ++ ["... ".toList]) ++ "]".toList) := by
  cases xs with
  | nil => exact ⟨fun _ => rfl, fun h => by simp at h⟩
  | cons x xs =>
    constructor
    · intro h
      rw [streamRange, io_rangeLoop xs x 0 (by omega), if_pos (by simpa using h)]
      rfl
    · intro h
      rw [streamRange, io_rangeLoop xs x 0 (by omega), if_neg (by simp at h ⊢; omega)]
      match xs, h with
      | x2 :: x3 :: x4 :: x5 :: x6 :: xs, _ => simp [List.intercalate]

theorem io_mapLoop : ∀ (m : List (Str × Str)) (c : Nat), c ≤ 5 → mapLoop c m =
    if m.length + c ≤ 5 then List.intercalate ",  ".toList (m.map (fun e => e.1 ++ " : ".toList ++ e.2))
    else (((m.take (5 - c)).map (fun e => e.1 ++ " : ".toList ++ e.2 ++ ",  ".toList)).flatten ++ "...".toList)
  | [], c, hc => by simp [mapLoop, hc]
  | e :: es, c, hc => by
    unfold mapLoop
    by_cases h5 : c = 5
    · subst h5
      rw [if_pos rfl, if_neg (by simp)]; simp
    · rw [if_neg h5, io_mapLoop es (c + 1) (by omega)]
      by_cases hl : (e :: es).length + c ≤ 5
      · rw [if_pos (show es.length + (c + 1) ≤ 5 by simp at hl; omega), if_pos hl]
        cases es <;> simp [List.intercalate]
      · rw [if_neg (show ¬es.length + (c + 1) ≤ 5 by simp at hl; omega), if_neg hl]
        obtain ⟨d, hd⟩ : ∃ d, 5 - c = d + 1 := ⟨5 - c - 1, by omega⟩
        rw [show 5 - (c + 1) = d by omega, hd, List.take_succ_cons, List.map_cons, List.flatten_cons]
        cases es with
        | nil => simp at hl; omega
        | cons f fs => simp

/-- C162: so is a map, with keys and values. -/
theorem C162_map (m : List (Str × Str)) :
    (m.length ≤ 5 → streamMap m = "{".toList ++ List.intercalate ",  ".toList (m.map (fun e => e.1 ++ " : ".toList ++ e.2)) ++ "}".toList) ∧
    (5 < m.length → streamMap m =
      "{".toList ++ List.intercalate ",  ".toList ((m.take 5).map (fun e => e.1 ++ " : ".toList ++ e.2) ++ ["...".toList]) ++ "}".toList) := by
  constructor
  · intro h
    rw [streamMap, io_mapLoop m 0 (by omega), if_pos (by omega)]
    rfl
  · intro h
    rw [streamMap, io_mapLoop m 0 (by omega), if_neg (by omega)]
    match m, h with
    | e1 :: e2 :: e3 :: e4 :: e5 :: e6 :: m, _ => simp [List.intercalate]

example : streamRange (["1", "2", "3", "4", "5", "6"].map String.toList) = "[1, 2, 3, 4, 5, ... ]".toList ∧
    streamRange (["1", "2"].map String.toList) = "[1, 2]".toList ∧ streamMap [("a".toList, "1".toList)] = "{a : 1}".toList := by decide

end Verif.Props
