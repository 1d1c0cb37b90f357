import Verif.Convert
import Verif.Schema
/-!
# The command line: `treeno format` and `treeno schema`

treeno/cli.py.  `typer.echo` is the text handed to it; `typer.style(text, fg=RED, bold=True)` is a parameter
`style` (it adds terminal escapes).  The command `tree` is in Verif/Tree.lean; `antlr_tree` in Verif/AntlrTree.lean.
-/
namespace Treeno

/-- `SqlConstruct`, treeno/cli.py 24-27. -/
inductive Construct
  | query | expression | type

/-- What `get_sql_object` returns. -/
inductive SqlObject
  | query (q : Query)
  | expression (e : Expr)
  | type (t : Ty)

/-- `sql_object.resolve(Schema.empty_schema())`, treeno/cli.py 35; `query_from_sql` may have returned None. -/
def resolveObject : Option Query → Except Err Query
  | none => .error .attributeError
  | some q => do
    let p ← q.resolve .empty
    .ok p.1

/-- `get_sql_object`, treeno/cli.py 30-42. -/
noncomputable def getSqlObject (s : Str) : Construct → Except Err SqlObject
  | .query => do
    let q ← queryFromSql s
    let q' ← resolveObject q
    .ok (.query q')
  | .expression => do
    let e ← expressionFromSql s
    .ok (.expression e)
  | .type => do
    let t ← typeFromSql s
    .ok (.type t)

/-- `sql_obj.sql(opts)` -/
def SqlObject.sql (o : Opts) : SqlObject → Except Err Str
  | .query q => q.sql o
  | .expression e => e.sql o
  | .type t => .ok t.sql

/-- `format`, treeno/cli.py 45-48. -/
noncomputable def formatCommand (c : Construct) (s : Str) : Except Err Str := do
  let x ← getSqlObject s c
  x.sql { mode := .pretty }

/-- One line of `schema`, treeno/cli.py 123-134: the test is `field is None`, which never holds, so a column
without a name is printed through `str(None)`. -/
def schemaLine (style : Str → Str) (f : Col) : Str :=
  f.name.getD (c% "None") ++ c% " - " ++ (if f.ty = .unknown then style (c% "<unknown>") else f.ty.sql)

/-- The text of `schema`, treeno/cli.py 117-135. -/
def schemaText (style : Str → Str) (s : Schema) : Str :=
  if s.fields.isEmpty then style (c% "Unknown schema") else join (c% "\n") (s.fields.map (schemaLine style))

/-- `schema`, treeno/cli.py 113-135: the query is resolved by `get_sql_object` and once more. -/
def schemaOf (style : Str → Str) : SqlObject → Except Err Str
  | .query q => do
    let p ← q.resolve .empty
    .ok (schemaText style p.2)
  | _ => .error .attributeError
noncomputable def schemaCommand (style : Str → Str) (s : Str) : Except Err Str := do
  let x ← getSqlObject s .query
  schemaOf style x

end Treeno
