import Verif.Convert
/-!
# Putting texts together

What a user writes to combine expressions they already have as text: each text on its own line ends, in
parentheses, around an operator.
-/
set_option autoImplicit false
namespace Treeno.Spec

/-- A text in parentheses.  The closing one stands on a new line, so that a comment at the end of the text does not
swallow it. -/
def par (s : Str) : Str := '(' :: (s ++ c% "\n)")

/-- The operators that build a binary node, as written between two operands. -/
def binTexts : List (Str × BinOp) :=
  [(c% " OR ", .or), (c% " AND ", .and), (c% " = ", .eq), (c% " <> ", .ne), (c% " < ", .lt), (c% " <= ", .le),
   (c% " > ", .gt), (c% " >= ", .ge), (c% " + ", .add), (c% " - ", .sub), (c% " * ", .mul), (c% " / ", .div),
   (c% " % ", .mod), (c% " IS DISTINCT FROM ", .distinct)]

/-- The text is read as the expression: the text of an expression that is not itself a subquery in parentheses, or
the text of a query that is read to its end. -/
inductive Text : Str → Expr → Prop
  | expr {s : Str} {e : Expr} : expressionFromSql s = .ok e → (∀ q, e ≠ .query q) → Text s e
  | query {s : Str} {q : Query} : (∃ c, P .query (toks s) = some (c, [])) → queryFromSql s = .ok (some q) → Text s (.query q)

/-- Texts in parentheses, with commas between them. -/
def parList : List Str → Str
  | [] => []
  | [s] => par s
  | s :: ss => par s ++ c% ", " ++ parList ss

/-- The two lists have the same length, and `R` holds item by item. -/
inductive Each {α β : Type} (R : α → β → Prop) : List α → List β → Prop
  | nil : Each R [] []
  | cons {a : α} {b : β} {as : List α} {bs : List β} : R a b → Each R as bs → Each R (a :: as) (b :: bs)

/-- The branches of a CASE. -/
def whenText : List (Str × Str) → Str
  | [] => []
  | (s, t) :: ws => c% " WHEN " ++ par s ++ c% " THEN " ++ par t ++ whenText ws

/-- A keyword and a text in parentheses, or nothing. -/
def optPar (k : Str) : Option Str → Str
  | none => []
  | some s => k ++ par s

/-- The text, if there is one, is read as the expression. -/
inductive OptText : Option Str → Option Expr → Prop
  | none : OptText none none
  | some {s : Str} {e : Expr} : Text s e → OptText (some s) (some e)

/-- Both texts of a pair are read. -/
def PairText (p : Str × Str) (q : Expr × Expr) : Prop := Text p.1 q.1 ∧ Text p.2 q.2

end Treeno.Spec
