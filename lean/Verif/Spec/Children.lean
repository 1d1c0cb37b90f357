import Verif.Object
/-!
# The children of a node

A child of a node is a node that is one of its attributes, or an element of a list, or a value of a dict that is one.
Data types do not count as children, nor do the columns that a table remembers.
-/
set_option autoImplicit false
namespace Treeno.Spec

/-- A node of a tree. -/
def isNode : Obj → Bool
  | .inst c _ => !(c == .dataType || c == .schema || c == .schemaField)
  | _ => false

/-- The nodes that an attribute holds. -/
def held : Obj → List Obj
  | .list l => l.filter isNode
  | .dict d => (d.map (·.2)).filter isNode
  | o => if isNode o then [o] else []

def children : Obj → List Obj
  | .inst _ as => as.flatMap fun a => held a.2
  | _ => []

/-- All nodes of a tree, from the root to the given depth. -/
def nodesTo : Nat → Obj → List Obj
  | 0, _ => []
  | n + 1, o => o :: ((children o).map (nodesTo n)).flatten

end Treeno.Spec

namespace Treeno
mutual
/-- How deep an object is nested. -/
def Obj.depth : Obj → Nat
  | .inst _ as => Obj.depths as + 1
  | .list l => Obj.depthList l + 1
  | .dict d => Obj.depths d + 1
  | .none => 1
  | .scalar _ => 1
  | .enum _ _ => 1
  | .rel _ => 1
def Obj.depthList : List Obj → Nat
  | [] => 0
  | x :: r => max x.depth (Obj.depthList r)
def Obj.depths : List (Str × Obj) → Nat
  | [] => 0
  | (_, v) :: r => max v.depth (Obj.depths r)
end
end Treeno

namespace Treeno.Spec

/-- All nodes of a tree. -/
def nodes (o : Obj) : List Obj := nodesTo o.depth o

/-- The attribute holds no node. -/
def without (k : Str) (as : List (Str × Obj)) : Bool :=
  match dget k as with
  | some v => (held v).isEmpty
  | none => true

/-- The nodes whose class has a `visit` method that leaves nothing out: not SELECT queries, LISTAGG and QDIGEST_AGG;
aggregate functions without ORDER BY, FILTER and OVER; other queries without ORDER BY and WITH; the parameters of a
join that has a condition. -/
def covered : Obj → Bool
  | .inst c as => (match c with
    | .selectQuery | .listAgg | .agg .qdigestAgg => false
    | .agg _ => without (c% "orderby") as && without (c% "filter_") as && without (c% "window") as
    | .setQuery _ | .tableQuery | .valuesQuery => without (c% "orderby") as && without (c% "with_") as
    | .joinConfig => !without (c% "criteria") as
    | _ => true)
  | _ => true

end Treeno.Spec
