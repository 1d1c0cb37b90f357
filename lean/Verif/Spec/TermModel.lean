import Verif.Spec.Meaning
/-!
# A model whose values are terms

It tells apart everything that some model tells apart, except for the outcome of predicates.
-/
set_option autoImplicit false
namespace Treeno.Spec

inductive Term
  | truth (b : Option Bool)
  | int (n : Int)
  | dec (d : Dec)
  | node (l : Label) (ts : List Term)

def Term.negate : Term → Term
  | .int n => .int (-n)
  | .dec d => .dec { d with neg := !d.neg }
  | t => .node (.other [c% "-"]) [t]

/-- Predicates on terms are unknown, except for IS NULL and IS DISTINCT FROM. -/
def termModel : Model where
  Env := Unit
  V := Term
  truth t := match t with
    | .truth b => b
    | _ => none
  ofTruth := .truth
  truth_ofTruth _ := rfl
  isNull t := match t with
    | .truth none => true
    | _ => false
  equal _ _ := none
  greater _ _ := none
  atLeast _ _ := none
  less _ _ := none
  atMost _ _ := none
  distinct _ _ := true
  like _ _ _ := none
  among _ _ _ := none
  int := .int
  dec := .dec
  negate := Term.negate
  negate_int _ := rfl
  negate_dec _ := rfl
  op l ds env := .node l (ds.map (· env))

end Treeno.Spec
