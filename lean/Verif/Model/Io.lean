import Verif.Base.Outcome

/-!
# Model of the text output

include/pagmo/io.hpp and src/io.cpp. A stream is the text written to it. How a number or an object of a user is written is a parameter: a cell of a
table and an element of a range is its text.
-/

set_option autoImplicit false

namespace Verif.Io

/-- `std::string` -/
abbrev Str := List Char

/-- `stream_range`, io.hpp 84-124, from the element with number `counter` on: the loop, for a range that is not empty. -/
def rangeLoop : Nat → Str → List Str → Str
  | counter, x, xs =>
    if counter = 5 then "... ".toList
    else match xs with
      | [] => x
      | y :: ys => x ++ ", ".toList ++ rangeLoop (counter + 1) y ys

/-- `stream_range` and `stream_impl` for a vector, io.hpp 84-131 -/
def streamRange : List Str → Str
  | [] => "[]".toList
  | x :: xs => '[' :: rangeLoop 0 x xs ++ [']']

/-- `stream_impl` for a map, io.hpp 139-156: the loop over the entries, whose keys and values are given as text -/
def mapLoop : Nat → List (Str × Str) → Str
  | _, [] => []
  | counter, e :: es =>
    if counter = 5 then "...".toList
    else e.1 ++ " : ".toList ++ e.2 ++ (if es.isEmpty then [] else ",  ".toList) ++ mapLoop (counter + 1) es

/-- `stream_impl` for a map, io.hpp 139-156 -/
def streamMap (m : List (Str × Str)) : Str := '{' :: mapLoop 0 m ++ ['}']

/-- `table`, io.hpp 175-202 -/
structure Table where
  indent : Str
  headers : List Str
  sizes : List Nat
  rows : List (List Str)
  deriving DecidableEq

/-- the constructor, io.cpp 46-51 -/
def Table.new (headers : List Str) (indent : Str) : Table := ⟨indent, headers, headers.map List.length, []⟩

/-- the `std::transform` of `add_row`, io.hpp 194-195; it writes as many widths as there are cells, past the end is undefined behaviour -/
def widen : List Str → List Nat → Outcome (List Nat)
  | [], ss => .ok ss
  | _ :: _, [] => .ub
  | c :: cs, s :: ss => do
    let r ← widen cs ss
    .ok (max c.length s :: r)

/-- `table::add_row`, io.hpp 183-196 -/
def Table.addRow (t : Table) (args : List Str) : Outcome Table :=
  if args.length ≠ t.headers.length then .throws .invalidArgument
  else do
    let s ← widen args t.sizes
    .ok { t with rows := t.rows ++ [args], sizes := s }

/-- rows added one after the other -/
def Table.addRows (t : Table) : List (List Str) → Outcome Table
  | [] => .ok t
  | r :: rs => do
    let t' ← t.addRow r
    t'.addRows rs

/-- `std::string(n, c)`; above `max_size()` it throws `std::length_error`, given here as `badAlloc` -/
def fill (n : Nat) (c : Char) : Outcome Str := if 2 ^ 63 ≤ n then .throws .badAlloc else .ok (List.replicate n c)

/-- a cell with the blanks after it, io.cpp 59-61, in the arithmetic of 64 bit unsigned integers -/
def padCell (str : Str) (size : Nat) : Outcome Str := do
  let b ← fill ((size + 2 ^ 64 - str.length + 2) % 2 ^ 64) ' '
  .ok (str ++ b)

/-- `print_row`, io.cpp 57-62; it reads as many widths as there are cells -/
def printRow : List Str → List Nat → Outcome Str
  | [], _ => .ok []
  | _ :: _, [] => .ub
  | c :: cs, s :: ss => do
    let a ← padCell c s
    let r ← printRow cs ss
    .ok (a ++ r)

/-- the line under the headers, io.cpp 66-67 -/
def printRule : List Nat → Outcome Str
  | [] => .ok []
  | s :: ss => do
    let a ← fill ((s + 2) % 2 ^ 64) '-'
    let r ← printRule ss
    .ok (a ++ r)

/-- the rows, io.cpp 69-73 -/
def printRows (t : Table) : List (List Str) → Outcome Str
  | [] => .ok []
  | v :: vs => do
    let a ← printRow v t.sizes
    let r ← printRows t vs
    .ok (t.indent ++ a ++ ['\n'] ++ r)

/-- `operator<<` for a table, io.cpp 54-75 -/
def Table.print (t : Table) : Outcome Str := do
  let h ← printRow t.headers t.sizes
  let l ← printRule t.sizes
  let r ← printRows t t.rows
  .ok (t.indent ++ h ++ ['\n'] ++ t.indent ++ l ++ ['\n'] ++ r)

end Verif.Io
