import Verif.Schema
/-!
# Resolving objects in place

`Relation.resolve` (treeno/relation.py) assigns to attributes of the relation objects it meets: `self.select`,
`self.arrays`, `self.data_type` and `Table._column_schema`.  `Schema.lean` works on trees; here relations are objects in a
heap that refer to each other, so that one object may be used at several places, and whatever was assigned before an
exception stays assigned.

Simplifications: values (`Value` other than a query used as a relation) are not objects, so a query that is both a relation
and part of a value counts as two; `SchemaField.source` is kept as the `Key` of the relation, as in `Schema.lean`.
-/
namespace Treeno

/-- The identity of an object. -/
abbrev Ref := Nat

/-- A relation object: its attributes, with references to other relations. -/
inductive RelObj
  /-- `Table`, treeno/relation.py 545-577. -/
  | table (t : TableRef)
  /-- `SelectQuery`, 413-470, and `data_type` of `Value`, treeno/expression.py 75-78. -/
  | select (items : List Expr) (from_ : Option Ref) (where_ : Option Expr) (groupby : Option GroupBy)
      (having : Option Expr) (distinct : Bool) (window : List (Str × Win)) (offset limit : Option Int)
      (orderby : List Ord) (with_ : List Ref) (dataType : Ty)
  /-- `SetQuery`, 256-279. -/
  | set (kind : SetKind) (left right : Ref) (distinct : Bool) (offset limit : Option Int) (orderby : List Ord)
      (with_ : List Ref) (dataType : Ty)
  /-- `TableQuery`, 611-626. -/
  | tableQ (t : Ref) (offset limit : Option Int) (orderby : List Ord) (with_ : List Ref) (dataType : Ty)
  /-- `ValuesQuery`, 653-696. -/
  | values (exprs : List Expr) (offset limit : Option Int) (orderby : List Ord) (with_ : List Ref) (dataType : Ty)
  /-- `AliasedRelation`, 719-745. -/
  | aliased (rel : Ref) (alias : Str) (cols : List Str)
  /-- `Join` with its `JoinConfig`, 878-905. -/
  | join (left right : Ref) (type : JoinType) (natural : Bool) (crit : Option Crit)
  /-- `Unnest`, 959-990. -/
  | unnest (arrays : List Expr) (ordinality : Bool) (dataType : Ty)
  /-- `Lateral`, 1022-1030. -/
  | lateral (q : Ref)
  /-- `TableSample`, 1047-1076. -/
  | sample (rel : Ref) (type : SampleType) (percentage : Expr)

/-- All objects there are. -/
abbrev Heap := Ref → Option RelObj

/-- Assignment to attributes of one object. -/
def Heap.put (h : Heap) (r : Ref) (o : RelObj) : Heap := fun a => if a = r then some o else h a

/-- A computation on the heap: no answer while the recursion is deeper than allowed, otherwise a value or an exception,
and in both cases the heap that is left. -/
def Act (α : Type) := Heap → Option (Except Err α × Heap)

def Act.pure {α : Type} (a : α) : Act α := fun h => some (.ok a, h)

def Act.bind {α β : Type} (x : Act α) (f : α → Act β) : Act β := fun h =>
  match x h with
  | none => none
  | some (.error e, h') => some (.error e, h')
  | some (.ok a, h') => f a h'

instance : Monad Act where
  pure := Act.pure
  bind := Act.bind

/-- A computation without assignments. -/
def Act.lift {α : Type} (x : Except Err α) : Act α := fun h => some (x, h)

/-- The object behind a reference. -/
def Act.get (r : Ref) : Act RelObj := fun h => some (match h r with
  | some o => .ok o
  | none => .error .attributeError, h)

def Act.put (r : Ref) (o : RelObj) : Act Unit := fun h => some (.ok (), h.put r o)

/-- `isinstance(relation, Query)` -/
def RelObj.isQuery : RelObj → Bool
  | .select .. | .set .. | .tableQ .. | .values .. => true
  | _ => false

/-- `maybe_prune_schema`, treeno/relation.py 1113-1127. -/
def pruneAt (r : Ref) (s : Schema) : Act Schema := do
  let o ← Act.get r
  Pure.pure (if o.isQuery then .empty else s)

/-- What `==` sees of the object (`Key`); the depth is bounded by the first argument. -/
def keyAt : Nat → Ref → Act Key
  | 0, _ => fun _ => none
  | n + 1, r => do
    let o ← Act.get r
    match o with
    | .table t => Pure.pure (.table t.name t.schema t.catalog)
    | .select .. | .set .. | .tableQ .. | .values .. => Pure.pure .query
    | .aliased r a cols => do
      let k ← keyAt n r
      Pure.pure (.aliased k a cols)
    | .join l r t nat cr => do
      let k ← keyAt n l
      let k' ← keyAt n r
      Pure.pure (.join k k' t nat (Crit.key cr))
    | .unnest as o _ => Pure.pure (.unnest as.length o)
    | .lateral _ => Pure.pure .lateral
    | .sample r t _ => do
      let k ← keyAt n r
      Pure.pure (.sample k t)

/-- `_resolve_with`, treeno/relation.py 213-233: the loop from the schema `s` on. -/
def withLoop (go : Schema → Ref → Act Schema) : List Ref → Schema → Act Schema
  | [], s => Pure.pure s
  | w :: ws, s => do
    let t ← go s w
    let m ← Act.lift (s.merge t)
    withLoop go ws m

/-- `self.select` -/
def RelObj.items : RelObj → List Expr
  | .select items .. => items
  | _ => []

/-- `self.select = items; self.data_type = dt`, treeno/relation.py 480-481. -/
def RelObj.setItems (items : List Expr) (dt : Ty) : RelObj → RelObj
  | .select _ fr wh gb hv d wins off lim ob w _ => .select items fr wh gb hv d wins off lim ob w dt
  | o => o

/-- `self.data_type = dt`, treeno/relation.py 645. -/
def RelObj.setType (dt : Ty) : RelObj → RelObj
  | .tableQ t off lim ob w _ => .tableQ t off lim ob w dt
  | o => o

/-- `self.arrays` -/
def RelObj.arrays : RelObj → List Expr
  | .unnest as _ _ => as
  | _ => []

/-- `self.arrays = as; self.data_type = dt`, treeno/relation.py 1004-1007. -/
def RelObj.setArrays (as : List Expr) (dt : Ty) : RelObj → RelObj
  | .unnest _ o _ => .unnest as o dt
  | o => o

/-- `resolve` of one object; `go` resolves the objects it refers to and `n` bounds the depth of `keyAt`. -/
def resolveObj (n : Nat) (go : Schema → Ref → Act Schema) (s : Schema) (r : Ref) : RelObj → Act Schema
  -- `Table.resolve`, treeno/relation.py 587-600
  | .table t => do
    Act.put r (.table (t.resolve s).1)
    Pure.pure (t.resolve s).2
  -- `SelectQuery.resolve`, 471-493
  | .select items none _ _ _ _ _ _ _ _ _ _ => do
    let cs ← Act.lift (selectCols items)
    Pure.pure ⟨cs, []⟩
  | .select _ (some f) _ _ _ _ _ _ _ _ w _ => do
    let ws ← withLoop go w .empty
    let ex ← Act.lift (s.merge ws)
    let ex' ← pruneAt f ex
    let sch ← go ex' f
    let o ← Act.get r
    let items ← Act.lift (resolveFieldsL sch o.items)
    let ts ← Act.lift (Expr.checks items)
    Act.put r (o.setItems items (selectType ts))
    let cs ← Act.lift (selectCols items)
    Pure.pure ⟨cs, []⟩
  -- `SetQuery.resolve`, 323-337
  | .set _ a b _ _ _ _ _ _ => do
    let s1 ← pruneAt a s
    let left ← go s1 a
    let s2 ← pruneAt b s
    let _ ← go s2 b
    Pure.pure ⟨left.fields.map fun f => ⟨f.name, .query, f.ty⟩, left.ids⟩
  -- `TableQuery.resolve`, 640-646; `_compute_data_type`, 628-631, always gives UNKNOWN
  | .tableQ t _ _ _ w _ => do
    let ws ← withLoop go w .empty
    let sch ← go ws t
    let o ← Act.get r
    Act.put r (o.setType .unknown)
    Pure.pure sch
  -- `ValuesQuery.resolve`, 707-711: `Schema(...)` lacks an argument
  | .values .. => Act.lift (.error .typeError)
  -- `AliasedRelation.resolve`, 760-774
  | .aliased f a cols => do
    let s1 ← pruneAt f s
    let sch ← go s1 f
    let k ← keyAt n f
    let fs ← Act.lift (renameCols (.aliased k a cols) cols 0 sch.fields)
    Pure.pure ⟨fs, [a]⟩
  -- `Join.resolve`, 938-950
  | .join a b _ _ _ => do
    let s1 ← pruneAt a s
    let left ← go s1 a
    let ex ← Act.lift (s.merge left)
    let s2 ← pruneAt b ex
    let right ← go s2 b
    Act.lift (left.merge right)
  -- `Unnest.resolve`, 1000-1014
  | .unnest as o dt => do
    let as' ← Act.lift (resolveFieldsL s as)
    let ts ← Act.lift (Expr.checks as')
    Act.put r ((RelObj.unnest as o dt).setArrays as' (.row (ts.map elemType)))
    Pure.pure ⟨ts.map fun t => ⟨none, .unnest as'.length o, elemType t⟩, []⟩
  -- `Lateral.resolve`, 1034-1036
  | .lateral q => go s q
  -- `TableSample.resolve`, 1086-1088
  | .sample f _ _ => go s f

/-- `relation.resolve(existing_schema)`, at most `n` calls deep. -/
def resolveAt : Nat → Schema → Ref → Act Schema
  | 0, _, _ => fun _ => none
  | n + 1, s, r => do
    let o ← Act.get r
    resolveObj n (resolveAt n) s r o

end Treeno
