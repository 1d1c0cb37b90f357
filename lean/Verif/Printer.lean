import Verif.Py
/-!
# `treeno/util.py` and `treeno/printer.py`
-/
namespace Treeno

/-- `PrintMode`, treeno/base.py 46-52. -/
inductive Mode
  | default
  | pretty
  deriving DecidableEq, Repr

/-- `PrintOptions`, treeno/base.py 55-58.  Simplification: `spaces` is a natural number. -/
structure Opts where
  mode : Mode := .default
  spaces : Nat := 4
  deriving DecidableEq, Repr

/-- `quote_identifier`, treeno/util.py 24-25. -/
def quoteIdent (s : Str) : Str := c% "\"" ++ s ++ c% "\""

/-- `quote_literal`, treeno/util.py 44-45. -/
def quoteLit (s : Str) : Str := c% "'" ++ s ++ c% "'"

/-- `parenthesize`, treeno/util.py 28-29, on text. -/
def parenS (s : Str) : Str := c% "(" ++ s ++ c% ")"

/-- `chain_identifiers`, treeno/util.py 32-41 (default join string). -/
def chainIdents (ids : List (Option Str)) : Str :=
  join (c% ".") ((ids.filterMap id).map quoteIdent)

/-- `pad`, treeno/printer.py 14-20. -/
def pad (input : Str) (n : Nat) : Str :=
  join ('\n' :: spaces n) (splitlines input)

/-- The loop of `JoinPrinter.to_string`, treeno/printer.py 53-69.
`first` is `idx == 0`, `cur` is `current_length`. -/
def joinLoop (mode : Mode) (remaining : Nat) : Bool → Nat → List Str → List Str
  | _, _, [] => []
  | first, cur, line :: rest =>
    let needsComma := if rest.isEmpty then 0 else 1
    let lineLength := line.length + needsComma
    if mode = .pretty ∧ cur + lineLength > remaining then
      ((if first then [] else ['\n']) ++ line) :: joinLoop mode remaining false lineLength rest
    else
      line :: joinLoop mode remaining false (cur + lineLength) rest

/-- `JoinPrinter.to_string`, treeno/printer.py 48-70. -/
def joinPrinter (delim : Str) (maxLength : Nat) (stmts : List Str) (o : Opts) : Except Err Str :=
  if o.spaces < maxLength then
    .ok (join delim (joinLoop o.mode (maxLength - o.spaces) true 0 stmts))
  else .error .assertion

/-- `join_stmts`, treeno/printer.py 23-27 (default delimiter `","`, default `max_length` 80). -/
def joinStmts (stmts : List Str) (o : Opts) (delim : Str := c% ",") : Except Err Str :=
  joinPrinter delim 80 stmts o

/-- `StatementPrinter.stmt_mapping`: an insertion-ordered dict, as an association list. -/
abbrev Entries := List (Str × Str)

/-- `StatementPrinter.add_entry`, treeno/printer.py 89-96. -/
def addEntry (m : Entries) (k v : Str) : Except Err Entries :=
  if hasKey k m then .error .assertion else .ok (m ++ [(k, v)])

/-- A sequence of `add_entry` calls. -/
def addEntries : Entries → Entries → Except Err Entries
  | m, [] => .ok m
  | m, (k, v) :: r => do addEntries (← addEntry m k v) r

/-- `StatementPrinter.update`, treeno/printer.py 98-102. -/
def updateEntries (m new : Entries) : Except Err Entries :=
  if new.any (fun p => hasKey p.1 m) then .error .assertion else addEntries m new

/-- `max(len(line) for line in stmt_mapping)`, treeno/printer.py 107. -/
def maxKeyLen : Entries → Nat
  | [] => 0
  | (k, _) :: r => max k.length (maxKeyLen r)

/-- One iteration of the loop of `StatementPrinter.to_string`, treeno/printer.py 109-125. -/
def stmtLine (mode : Mode) (river : Bool) (rpad : Nat) (e : Str × Str) : Str :=
  let (kw, s) :=
    if mode = .pretty ∧ river = true then
      (rjust e.1 rpad, if e.2.isEmpty then e.2 else pad e.2 (rpad + 1))
    else (e.1, e.2)
  if s.isEmpty then kw else kw ++ c% " " ++ s

/-- The line separator of a mode, treeno/printer.py 127. -/
def lineSep : Mode → Str
  | .pretty => c% "\n"
  | .default => c% " "

/-- `StatementPrinter.to_string`, treeno/printer.py 104-128. -/
def stmtString (river : Bool) (m : Entries) (o : Opts) : Str :=
  if m.isEmpty then [] else
  join (lineSep o.mode) (m.map (stmtLine o.mode river (maxKeyLen m)))

end Treeno
