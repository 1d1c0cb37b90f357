import Verif.Spec.Reread
import Verif.Spec.Tidy
import Verif.Spec.Fits
/-!
# Chains of set operations

How SQL groups `q0 UNION q1 INTERSECT q2 EXCEPT ALL q3 …`: every INTERSECT before every UNION and EXCEPT,
and otherwise from left to right.
-/
set_option autoImplicit false
namespace Treeno
namespace Spec

/-- A set operation with its second operand; the quantifier is `some true` for DISTINCT, `some false` for ALL. -/
structure Link (α : Type) where
  kind : SetKind
  quant : Option Bool
  operand : α

/-- The operation that waits for its second operand is applied to `cur`. -/
def close {α : Type} (f : SetKind → Option Bool → α → α → α) : Option (α × SetKind × Option Bool) → α → α
  | none, cur => cur
  | some (a, k, d), cur => f k d a cur

/-- INTERSECT extends the current operand; UNION and EXCEPT apply the waiting operation and begin a new
operand. -/
def groupFrom {α : Type} (f : SetKind → Option Bool → α → α → α) :
    Option (α × SetKind × Option Bool) → α → List (Link α) → α
  | left, cur, [] => close f left cur
  | left, cur, ⟨.intersect, d, b⟩ :: ls => groupFrom f left (f .intersect d cur b) ls
  | left, cur, ⟨k, d, b⟩ :: ls => groupFrom f (some (close f left cur, k, d)) b ls

/-- The chain that begins with `a`. -/
def grouped {α : Type} (f : SetKind → Option Bool → α → α → α) (a : α) (ls : List (Link α)) : α := groupFrom f none a ls

/-- A query somebody writes as an operand: SELECT, TABLE or VALUES with a text that can be read back. -/
structure WrittenQuery where
  body : Treeno.QBody
  text : Str

def WrittenQuery.Ok (w : WrittenQuery) : Prop :=
  w.body.Tidy ∧ w.body.Fits ∧ ∃ o, (Query.mk w.body none none [] []).sql o = .ok w.text

/-- The query that is meant. -/
def WrittenQuery.query (w : WrittenQuery) : Query := .mk w.body.reread none none [] []

def kindWord : SetKind → Str
  | .union => c% " UNION "
  | .except => c% " EXCEPT "
  | .intersect => c% " INTERSECT "

def quantWord : Option Bool → Str
  | none => []
  | some true => c% "DISTINCT "
  | some false => c% "ALL "

/-- The text of a chain. -/
def chainText (s : Str) (ls : List (Link WrittenQuery)) : Str :=
  ls.foldl (fun s l => s ++ (kindWord l.kind ++ quantWord l.quant) ++ l.operand.text) s

/-- A set operation between two queries; DISTINCT unless ALL is written. -/
def setQuery (k : SetKind) (d : Option Bool) (l r : Query) : Query := .mk (.set k l r (d.getD true)) none none [] []

/-- The queries of the operands. -/
def queries (ls : List (Link WrittenQuery)) : List (Link Query) := ls.map fun l => ⟨l.kind, l.quant, l.operand.query⟩

/-- The query with the terms as its ORDER BY. -/
def orderedBy (ob : List Ord) : Query → Query
  | .mk b off lim _ w => .mk b off lim ob w

end Spec
end Treeno
