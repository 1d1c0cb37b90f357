import Verif.Walk
import Verif.Typing
/-!
# Schemas and name resolution

`Schema`, `Relation.resolve` (treeno/relation.py) and treeno/datatypes/resolve.py.

`resolve` mutates the relation in Python (`self.select`, `self.arrays`, `Table._column_schema`); the
model returns the changed relation together with the schema.  Relations are values here, so two places
of a tree never share one mutable `Table` object.
-/
namespace Treeno

/-- `identifier()` of a relation, treeno/relation.py 85-96, 602-603, 776-777. -/
def Key.identifier : Key → Option Str
  | .table n _ _ => some n
  | .aliased _ a _ => some a
  | _ => none

/-- Truth value of `a == b` on relations: the `__eq__` generated by attrs compares class and then
attribute after attribute; a query against anything but a value makes `wrap_literal` raise
(treeno/expression.py 414-425 and datatypes/inference.py 20-40). -/
def keyEq : Key → Key → Except Err Bool
  | .query, .query => .ok true
  | .query, _ | _, .query => .error .notImplemented
  | .table n s c, .table n' s' c' => .ok (n == n' && s == s' && c == c')
  | .aliased k a cs, .aliased k' a' cs' => do
    let b ← keyEq k k'
    .ok (b && a == a' && cs == cs')
  | .join l r t n c, .join l' r' t' n' c' => do
    let b ← keyEq l l'
    if b then do
      let b' ← keyEq r r'
      .ok (b' && t == t' && n == n' && c == c')
    else .ok false
  | .unnest n o, .unnest n' o' => .ok (n == n' && o == o')
  | .lateral, .lateral => .ok true
  | .sample k t, .sample k' t' => do
    let b ← keyEq k k'
    .ok (b && t == t')
  | _, _ => .ok false

/-- `SchemaField.__eq__` (attrs): name, then source, then type. -/
def colEq (f g : Col) : Except Err Bool :=
  if f.name = g.name then do
    let b ← keyEq f.source g.source
    .ok (b && f.ty == g.ty)
  else .ok false

/-- `f in fields` -/
def colIn (f : Col) : List Col → Except Err Bool
  | [] => .ok false
  | g :: gs => do
    let b ← colEq g f
    if b then .ok true else colIn f gs

/-- `Schema`, treeno/relation.py 135-156; the set `relation_ids` is a list used only through
membership. -/
structure Schema where
  fields : List Col
  ids : List Str
  deriving DecidableEq, Repr

/-- `Schema.empty_schema`, 154-156. -/
def Schema.empty : Schema := ⟨[], []⟩

def addCol (acc : List Col) (f : Col) (present : Bool) : List Col := if present then acc else acc ++ [f]

/-- The loop of `Schema.merge`, treeno/relation.py 177-179. -/
def mergeCols (acc : List Col) : List Col → Except Err (List Col)
  | [] => .ok acc
  | f :: fs => do
    let b ← colIn f acc
    mergeCols (addCol acc f b) fs

/-- `Schema.merge`, treeno/relation.py 158-181. -/
def Schema.merge (s t : Schema) : Except Err Schema := do
  let fs ← mergeCols s.fields t.fields
  .ok ⟨fs, s.ids ++ t.ids⟩

/-- The test in the loop of `_make_field`, treeno/datatypes/resolve.py 20-27: Python reads it as
`(same name and no table) or table known`. -/
def fieldMatches (ids : List Str) (name : Str) (table : Option Str) (f : Col) : Bool :=
  (f.name == some name && table == none) || (match table with
    | some t => ids.contains t
    | none => false)

/-- The assertions at the end of `_make_field`. -/
def uniqueTy : List Col → Except Err Ty
  | [f] => .ok f.ty
  | _ => .error .assertion

/-- `_make_field` for a field with a string or no table, treeno/datatypes/resolve.py 14-47. -/
def makeField (s : Schema) (name : Str) (table : Option Str) (ty : Ty) : Except Err Expr :=
  let ms := s.fields.filter (fieldMatches s.ids name table)
  if ms.isEmpty then .ok (.field name table ty)
  else match table with
    | none => do
      let t ← uniqueTy ms
      .ok (.field name none t)
    | some tab => do
      let t ← uniqueTy (ms.filter (·.source.identifier == some tab))
      .ok (.field name (some tab) t)

/-- `_make_star` for a star with a string or no table, treeno/datatypes/resolve.py 51-60. -/
def makeStar (s : Schema) (table : Option Str) : Expr :=
  let ms := match table with
    | none => s.fields
    | some t => s.fields.filter (·.source.identifier == some t)
  .star table (.row (ms.map (·.ty)))

/-- `isinstance(table, Query)` -/
def Expr.isQueryE : Expr → Bool
  | .query _ => true
  | _ => false

/-- `_make_field` when `table` is a value: values are not hashable, so the set lookup raises
`TypeError` for the first column. -/
def makeFieldOf (s : Schema) (name : Str) (base : Expr) (ty : Ty) : Except Err Expr :=
  if base.isQueryE then .error .notImplemented
  else if s.fields.isEmpty then .ok (.fieldOf name base ty)
  else .error .typeError

/-- `_make_star` when `table` is a value: `identifier() == value` is an `Equal` node, hence true, and
raises when the identifier is `None`. -/
def makeStarOf (s : Schema) (base : Expr) : Except Err Expr :=
  if base.isQueryE then .error .notImplemented
  else if s.fields.all (·.source.identifier.isSome) then .ok (.starOf base (.row (s.fields.map (·.ty))))
  else .error .valueError

/-- The special nodes of `resolve_fields`, treeno/datatypes/resolve.py 78-81. -/
def resolveLeaf (s : Schema) : Leaf
  | .field n t ty => some (makeField s n t ty)
  | .fieldOf n b ty => some (makeFieldOf s n b ty)
  | .star t _ => some (.ok (makeStar s t))
  | .starOf b _ => some (makeStarOf s b)
  | _ => none

/-- `attr.evolve` on a `Table`: the child `_column_schema` is not an init argument. -/
def evolveTable : TabFn := fun _ => .error .typeError

/-- `resolve_fields` on a value, treeno/datatypes/resolve.py 63-84. -/
def resolveFields (s : Schema) (e : Expr) : Except Err Expr := do
  let e' ← walkExpr (resolveLeaf s) evolveTable e
  let _ ← e'.check
  .ok e'

def resolveFieldsL (s : Schema) : List Expr → Except Err (List Expr)
  | [] => .ok []
  | e :: es => do
    let e' ← resolveFields s e
    let es' ← resolveFieldsL s es
    .ok (e' :: es')

/-- `identifier()` of a value, treeno/expression.py 153-162, 252-253, 284-285, 358-359. -/
def Expr.identifier : Expr → Option Str
  | .field n _ _ | .fieldOf n _ _ => some n
  | .alias _ n => some n
  | .var n => some n
  | _ => none

/-- `maybe_prune_schema`, treeno/relation.py 1113-1127. -/
def prune (r : Rel) (s : Schema) : Schema := if r.isQuery then .empty else s

/-- The schema fields of a SELECT, treeno/relation.py 485-493. -/
def selectCols : List Expr → Except Err (List Col)
  | [] => .ok []
  | e :: es => do
    let t ← e.check
    let cs ← selectCols es
    .ok (⟨e.identifier, .query, t⟩ :: cs)

/-- The loop of `AliasedRelation.resolve`, treeno/relation.py 764-773. -/
def renameCols (key : Key) (aliases : List Str) : Nat → List Col → Except Err (List Col)
  | _, [] => .ok []
  | i, f :: fs => do
    let n ← if aliases.isEmpty then .ok f.name else (match aliases[i]? with
      | some a => .ok (some a)
      | none => .error .indexError)
    let rest ← renameCols key aliases (i + 1) fs
    .ok (⟨n, key, f.ty⟩ :: rest)

/-- `Table.resolve`, treeno/relation.py 587-599.  Simplification: the schema a table remembers lists
just its own name in `relation_ids`. -/
def TableRef.resolve (s : Schema) (t : TableRef) : TableRef × Schema :=
  if s.ids.contains t.name then
    let fs := s.fields.filter (·.source.identifier == some t.name)
    ({ t with cols := fs }, ⟨fs, [t.name]⟩)
  else (t, ⟨t.cols, [t.name]⟩)

mutual
/-- The `Key` of a relation. -/
def Rel.key : Rel → Key
  | .table t => .table t.name t.schema t.catalog
  | .query _ => .query
  | .aliased n => n.key
  | .join l r t nat cr => .join l.key r.key t nat (Crit.key cr)
  | .unnest as o => .unnest as.length o
  | .lateral _ => .lateral
  | .sample r t _ => .sample r.key t
def Named.key : Named → Key
  | .mk r a cols => .aliased r.key a cols
def Crit.key : Option Crit → Option (Option (List Str))
  | none => none
  | some (.using cols) => some (some cols)
  | some (.on _) => some none
end

/-- SELECT with a FROM clause and TABLE call `_resolve_with`, SELECT without FROM and the set operations
do not. -/
def QBody.usesWith : QBody → Bool
  | .select _ (some _) _ _ _ _ _ => true
  | .table _ => true
  | _ => false

/-- `self._resolve_with()` if it is called at all. -/
def pickWith (use : Bool) (w : List Named) (r : Except Err (List Named × Schema)) :
    Except Err (List Named × Schema) := if use then r else .ok (w, .empty)

/-- `SelectQuery.resolve` after the FROM clause, treeno/relation.py 480-494. -/
def selectOut (sch : Schema) (items : List Expr) : Except Err (List Expr × Schema) := do
  let items' ← resolveFieldsL sch items
  let cs ← selectCols items'
  .ok (items', ⟨cs, []⟩)

mutual
/-- `resolve` of a query, treeno/relation.py 323-337 (set operations), 471-494 (SELECT), 640-646
(TABLE), 707-711 (VALUES: `Schema(...)` lacks an argument). -/
def Query.resolve (s : Schema) : Query → Except Err (Query × Schema)
  | .mk b off lim ob w => do
    let p ← pickWith b.usesWith w (Named.resolveW .empty w)
    let r ← b.resolve s p.2
    .ok (.mk r.1 off lim ob p.1, r.2)
/-- The class-specific part; `ws` is `self._resolve_with()`. -/
def QBody.resolve (s : Schema) (ws : Schema) : QBody → Except Err (QBody × Schema)
  | .select items fr wh gb hv d wins => do
    let p ← Rel.resolveFrom s ws items fr
    .ok (.select p.2.1 p.1 wh gb hv d wins, p.2.2)
  | .set k l r d => do
    let p ← l.resolve .empty
    let p' ← r.resolve .empty
    .ok (.set k p.1 p'.1 d, ⟨p.2.fields.map fun f => ⟨f.name, .query, f.ty⟩, p.2.ids⟩)
  | .table t => .ok (.table (t.resolve ws).1, (t.resolve ws).2)
  | .values _ => .error .typeError
/-- `SelectQuery.resolve`, treeno/relation.py 471-494: the new FROM clause, select list and schema. -/
def Rel.resolveFrom (s : Schema) (ws : Schema) (items : List Expr) : Option Rel → Except Err (Option Rel × List Expr × Schema)
  | none => do
    let cs ← selectCols items
    .ok (none, items, ⟨cs, []⟩)
  | some r => do
    let ex ← s.merge ws
    let p ← r.resolve (prune r ex)
    let out ← selectOut p.2 items
    .ok (some p.1, out)
/-- `_resolve_with`, treeno/relation.py 213-233, continued from the schema `s`. -/
def Named.resolveW (s : Schema) : List Named → Except Err (List Named × Schema)
  | [] => .ok ([], s)
  | n :: ns => do
    let p ← Named.resolve s n
    let m ← s.merge p.2
    let p' ← Named.resolveW m ns
    .ok (p.1 :: p'.1, p'.2)
/-- `AliasedRelation.resolve`, treeno/relation.py 760-774. -/
def Named.resolve (s : Schema) : Named → Except Err (Named × Schema)
  | .mk r a cols => do
    let p ← r.resolve (prune r s)
    let fs ← renameCols (.aliased p.1.key a cols) cols 0 p.2.fields
    .ok (.mk p.1 a cols, ⟨fs, [a]⟩)
/-- `resolve` of the other relations, treeno/relation.py 938-950 (joins), 1001-1014 (UNNEST),
1032-1034 (LATERAL), 1086-1088 (TABLESAMPLE). -/
def Rel.resolve (s : Schema) : Rel → Except Err (Rel × Schema)
  | .table t => .ok (.table (t.resolve s).1, (t.resolve s).2)
  | .query q => do
    let p ← q.resolve s
    .ok (.query p.1, p.2)
  | .aliased n => do
    let p ← Named.resolve s n
    .ok (.aliased p.1, p.2)
  | .join l r t nat cr => do
    let p ← l.resolve (prune l s)
    let ex ← s.merge p.2
    let p' ← r.resolve (prune r ex)
    let m ← p.2.merge p'.2
    .ok (.join p.1 p'.1 t nat cr, m)
  | .unnest as o => do
    let as' ← resolveFieldsL s as
    let ts ← Expr.checks as'
    .ok (.unnest as' o, ⟨ts.map fun t => ⟨none, .unnest as.length o, elemType t⟩, []⟩)
  | .lateral q => do
    let p ← q.resolve s
    .ok (.lateral p.1, p.2)
  | .sample r t p => do
    let p' ← r.resolve s
    .ok (.sample p'.1 t p, p'.2)
end

/-- `Lambda.from_generic_expr`, treeno/expression.py 371-400: which nodes are replaced. -/
def lambdaLeaf (ins : List Str) : Leaf
  | .field n none _ => if ins.contains n then some (.ok (.var n)) else none
  | _ => none

def lambdaOf (ins : List Str) (e : Expr) : Except Err Expr := do
  let b ← walkExpr (lambdaLeaf ins) evolveTable e
  (Expr.lam ins b).build

end Treeno
