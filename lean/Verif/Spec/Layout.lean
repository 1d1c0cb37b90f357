import Verif.Py
/-!
# Specification of text layout

What it means, independently of the printing code, for a text to be a comma-separated list broken
into lines, and for a block of text to be indented.
-/
namespace Treeno.Spec
open Treeno

/-- The text of rows of items: items separated by `delim`, rows separated by `delim` and a line
break. -/
def rowsText (delim : Str) (rows : List (List Str)) : Str :=
  join (delim ++ ['\n']) (rows.map (join delim))

/-- Width of a row as printed: its items joined by commas, and the trailing comma unless it is the
last row. -/
def rowWidth (isLast : Bool) (row : List Str) : Nat :=
  (join (c% ",") row ++ (if isLast then [] else c% ",")).length

/-- Every row with at least two items fits in `w` columns. -/
def RowsFit (w : Nat) : List (List Str) → Prop
  | [] => True
  | r :: rs => (2 ≤ r.length → rowWidth rs.isEmpty r ≤ w) ∧ RowsFit w rs

/-- A break is made only where it is needed: the first item of the next row, appended to the row
before it (with its own comma if items follow), would not fit in `w` columns. -/
def BreaksNeeded (w : Nat) : List (List Str) → Prop
  | [] => True
  | [_] => True
  | _ :: [] :: rs => BreaksNeeded w ([] :: rs)
  | r :: (x :: xs) :: rs =>
    rowWidth (xs.isEmpty && rs.isEmpty) (r ++ [x]) > w ∧ BreaksNeeded w ((x :: xs) :: rs)

/-- `s` with every line break followed by `k` blanks. -/
def indentBy (k : Nat) : Str → Str
  | [] => []
  | '\n' :: cs => '\n' :: (spaces k ++ indentBy k cs)
  | c :: cs => c :: indentBy k cs

/-- The lines of a text, split at `'\n'` only. -/
def linesOf : Str → List Str
  | [] => [[]]
  | c :: cs =>
    if c = '\n' then [] :: linesOf cs
    else match linesOf cs with
      | [] => [[c]]
      | l :: ls => (c :: l) :: ls

/-- Text without line-break characters other than `'\n'`, and not ending in a line break. -/
def Plain (s : Str) : Prop := (∀ c ∈ s, isBreak c = true → c = '\n') ∧ s.getLast? ≠ some '\n'

end Treeno.Spec
