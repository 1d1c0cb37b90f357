import Verif.Spec.SqlMeaning
/-!
# The clauses of a query as they are written

What the trees should show of the clauses of a `querySpecification`, and the two cases in which the visitor
loses one.
-/
set_option autoImplicit false
namespace Treeno.Spec
open Treeno

/-- Expressions that the visitor has no method for, with or without parentheses. -/
inductive Unsupported : CE → Prop
  | binary (t : Tok) : Unsupported (.binary t)
  | exists_ (q : CQ) : Unsupported (.exists_ q)
  | position (l r : CE) : Unsupported (.position l r)
  | substring (v f : CE) (n : Option CE) : Unsupported (.substring v f n)
  | extract (t : Tok) (v : CE) : Unsupported (.extract t v)
  | trimFrom (s : Option Tok) (c : Option CE) (v : CE) : Unsupported (.trimFrom s c v)
  | trim (v : CE) (c : Option CE) : Unsupported (.trim v c)
  | grouping (ns : List (List Tok)) : Unsupported (.grouping ns)
  | paren {e : CE} (h : Unsupported e) : Unsupported (.paren e)

/-- A query that is another one in parentheses. -/
inductive Nested : CQ → Prop
  | mk (rc : Bool) (w : List CNamed) (q : CQN) (ob : List CSort) (off : Option (Tok × Option Tok)) (lim : CLimit) :
    Nested (.mk rc w (.mk (.sub q) ob off lim))

/-- A relation that is such a query. -/
inductive NestedRel : CR → Prop
  | sub {q : CQ} (h : Nested q) : NestedRel (.sub q)
  | paren {r : CR} (h : NestedRel r) : NestedRel (.paren r)

/-- An optional clause is in the tree if it is written and the visitor can read it. -/
def Shown {α} (written : Option CE) (tree : Option α) : Prop :=
  tree.isSome ↔ ∃ e, written = some e ∧ ¬ Unsupported e

def offsetWritten (o : Option (Tok × Option Tok)) : Option Int := o.map fun p => (digitsVal p.1.text : Int)
/-- LIMIT ALL is no limit. -/
def limitWritten : CLimit → Option Int
  | .limit t => if t.kind = .int then some (digitsVal t.text) else none
  | _ => none

def directions : List Ord → List (Bool × Bool)
  | [] => []
  | .mk _ d n :: os => (d, n) :: directions os
def directionsWritten : List CSort → List (Bool × Bool)
  | [] => []
  | .mk _ o n :: ss => (descMeaning o, firstMeaning n) :: directionsWritten ss

def groupCount : Option GroupBy → Nat
  | none => 0
  | some (.mk gs _) => gs.length

end Treeno.Spec
