import Verif.Spec.QueryText
import Verif.Cst
/-!
# Function calls as they are written
-/
set_option autoImplicit false
namespace Treeno.Spec
open Treeno

/-- `e` is a call of the function called `name` with these arguments. -/
inductive IsCall (name : Str) (args : List Expr) (ob : List Ord) : Expr → Prop
  | func (f : Fn) : f.name = name → ob = [] → IsCall name args ob (.func f args)
  | agg (f : Agg) (fl : Option Expr) (w : Option Win) (ign : Bool) : f.name = name →
      IsCall name args ob (.agg f args ob fl w ign)

/-- The functions that have a syntax of their own; a quoted name is the only way to call them like the others. -/
def ownSyntax : List Str :=
  [c% "LISTAGG", c% "NORMALIZE", c% "CURRENT_DATE", c% "CURRENT_TIME", c% "CURRENT_TIMESTAMP",
   c% "LOCALTIME", c% "LOCALTIMESTAMP", c% "CURRENT_USER", c% "CURRENT_CATALOG", c% "CURRENT_SCHEMA",
   c% "CURRENT_PATH"]

/-- Those that are written as a word, and what the word stands for. -/
def wordCalls : List (Str × Expr) :=
  [(c% "CURRENT_DATE", .session .currentDate), (c% "CURRENT_USER", .session .currentUser),
   (c% "CURRENT_CATALOG", .session .currentCatalog), (c% "CURRENT_SCHEMA", .session .currentSchema),
   (c% "CURRENT_PATH", .session .currentPath), (c% "CURRENT_TIME", .curTime .currentTime 3),
   (c% "CURRENT_TIMESTAMP", .curTime .currentTimestamp 3), (c% "LOCALTIME", .curTime .localTime 3),
   (c% "LOCALTIMESTAMP", .curTime .localTimestamp 3)]

/-- What a call of a function with a syntax of its own stands for: the word, NORMALIZE without a form, or LISTAGG with a
space between the values in the order of the sort keys. -/
inductive SpecialCall (ob : List Ord) (fl : Option Expr) (ign : Option Bool) (w : Option Win) : Str → List Expr → Expr → Prop
  | listagg {v : Expr} : ob ≠ [] → ign ≠ some true → w = none → fl = none → SpecialCall ob fl ign w (c% "LISTAGG") [v] (.listagg v (c% " ") none ob)
  | normalize {v : Expr} : ob = [] → ign = none → w = none → fl = none → SpecialCall ob fl ign w (c% "NORMALIZE") [v] (.normalize v none)
  | word {n : Str} {e : Expr} : (n, e) ∈ wordCalls → ob = [] → ign = none → w = none → fl = none → SpecialCall ob fl ign w n [] e

/-- The text starts with the name, a parenthesis, and the list of the texts of the arguments, and goes on with
the order of the rows or with the closing parenthesis. -/
def CallText (o : Opts) (name : Str) (args : List Expr) (ob : List Ord) (s : Str) : Prop :=
  ∃ inner rest, ListOf o [] (fun e t => e.sql o = .ok t) args inner ∧ s = name ++ c% "(" ++ inner ++ rest ∧
    (ob = [] → ∃ r, rest = c% ")" ++ r) ∧
    (ob ≠ [] → ∃ sep list r, (sep = c% " " ∨ sep = c% " \n") ∧ ListOf o [] (fun t u => t.sql o = .ok u) ob list ∧
      rest = sep ++ c% "ORDER BY " ++ list ++ c% ")" ++ r)

end Treeno.Spec
