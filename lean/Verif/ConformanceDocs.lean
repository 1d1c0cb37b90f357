import Verif.Props.RoundTripLimits
import Verif.Props.CallProps
import Verif.Cli
import Verif.Tree
import Verif.Heap
/-!
# Conformance with the README and the docstrings

The outputs shown in /repo/README.md and in the docstrings of treeno/base.py, expression.py and relation.py, checked by the
kernel on the model.  These are tests of the model; no theorem depends on them.
-/
set_option autoImplicit false
namespace Treeno.Conformance
open Treeno Treeno.Props

/-- The text of a query that was read. -/
def printed (o : Opts) : Except Err (Option Query) → Except Err Str
  | .ok (some q) => q.sql o
  | .ok none => .error .noneValue
  | .error e => .error e

theorem printed_of_parserN {s : Str} {x : Except Err Str} (o : Opts) (n : Nat)
    (h : (parserN n .query (toks s)).map (fun p => printed o p.1.conv) = some x) : printed o (queryFromSql s) = x := by
  cases hp : parserN n .query (toks s) with
  | none => rw [hp] at h; exact nomatch h
  | some p =>
    rw [hp] at h
    rw [queryFromSql, P_of_parserN (x := (p.1, p.2)) hp]
    exact Option.some.inj h

/-- What follows the reading in `format`. -/
def formatted (q : Except Err (Option Query)) : Except Err Str := do
  let q ← q
  let q' ← resolveObject q
  (SqlObject.query q').sql { mode := .pretty }

theorem format_of_parserN {s : Str} {x : Except Err Str} (n : Nat)
    (h : (parserN n .query (toks s)).map (fun p => formatted p.1.conv) = some x) : formatCommand .query s = x := by
  cases hp : parserN n .query (toks s) with
  | none => rw [hp] at h; exact nomatch h
  | some p =>
    rw [hp] at h
    have h : formatted p.1.conv = x := Option.some.inj h
    have hq : queryFromSql s = p.1.conv := by rw [queryFromSql, P_of_parserN (x := (p.1, p.2)) hp]
    rw [← h, formatCommand, getSqlObject, hq, formatted]
    cases p.1.conv with
    | error e => rfl
    | ok q =>
      show (do let x ← (do let q' ← resolveObject q; Except.ok (SqlObject.query q')); x.sql _) = _
      show _ = (do let q' ← resolveObject q; _)
      cases resolveObject q with
      | error e => rfl
      | ok q' => rfl

-- README.md 23-31
example : formatCommand .query (c% "SELECT a,b FROM (SELECT a, b, c FROM t WHERE c > 5 AND b = 2 ORDER BY a) LIMIT 3;") =
    .ok (c% "SELECT \"a\",\"b\"\n  FROM (SELECT \"a\",\"b\",\"c\"\n          FROM \"t\"\n         WHERE \"c\" > 5\n               AND \"b\" = 2\n         ORDER BY \"a\")\n LIMIT 3") :=
  format_of_parserN 60 (by krfl)
-- README.md 92-97.  The pretty text there has the join on one line; the code breaks the lines, as
-- tests/resources/pretty_generated_statements.sql expects.
example : printed { mode := .pretty } (queryFromSql (c% "SELECT foo.a, t.b FROM t INNER JOIN foo ON foo.a = t.b")) =
    .ok (c% "SELECT \"foo\".\"a\",\"t\".\"b\"\n  FROM \"t\"\n       INNER JOIN \"foo\"\n       ON \"foo\".\"a\" = \"t\".\"b\"") :=
  printed_of_parserN _ 60 (by krfl)
example : printed {} (queryFromSql (c% "SELECT foo.a, t.b FROM t INNER JOIN foo ON foo.a = t.b")) =
    .ok (c% "SELECT \"foo\".\"a\",\"t\".\"b\" FROM \"t\" INNER JOIN \"foo\" ON \"foo\".\"a\" = \"t\".\"b\"") := printed_of_parserN _ 60 (by krfl)
-- README.md 103-112.  The pretty text there has another layout of the window.
example : printed { mode := .pretty } (queryFromSql (c% "SELECT SUM(a) OVER (PARTITION BY date ORDER BY timestamp ROWS BETWEEN 5 PRECEDING AND CURRENT ROW), x, y, z FROM t")) =
    .ok (c% "SELECT SUM(\"a\")\n           OVER (PARTITION BY \"date\"\n                    ORDER BY \"timestamp\"\n                     ROWS BETWEEN 5 PRECEDING AND CURRENT ROW),\n       \"x\",\"y\",\"z\"\n  FROM \"t\"") :=
  printed_of_parserN _ 60 (by krfl)
example : printed {} (queryFromSql (c% "SELECT SUM(a) OVER (PARTITION BY date ORDER BY timestamp ROWS BETWEEN 5 PRECEDING AND CURRENT ROW), x, y, z FROM t")) =
    .ok (c% "SELECT SUM(\"a\") OVER (PARTITION BY \"date\" ORDER BY \"timestamp\" ROWS BETWEEN 5 PRECEDING AND CURRENT ROW),\"x\",\"y\",\"z\" FROM \"t\"") :=
  printed_of_parserN _ 60 (by krfl)
-- README.md 118-125
example : printed {} (queryFromSql (c% "SELECT a FROM (SELECT a,b FROM (SELECT a,b,c FROM t))")) =
    .ok (c% "SELECT \"a\" FROM (SELECT \"a\",\"b\" FROM (SELECT \"a\",\"b\",\"c\" FROM \"t\"))") := printed_of_parserN _ 60 (by krfl)
example : printed { mode := .pretty } (queryFromSql (c% "SELECT a FROM (SELECT a,b FROM (SELECT a,b,c FROM t))")) =
    .ok (c% "SELECT \"a\"\n  FROM (SELECT \"a\",\"b\"\n          FROM (SELECT \"a\",\"b\",\"c\"\n                  FROM \"t\"))") := printed_of_parserN _ 60 (by krfl)
-- README.md 131-138
example : printed { mode := .pretty } (queryFromSql (c% "WITH foo AS (SELECT a,b FROM t) SELECT foo.a")) =
    .ok (c% "  WITH \"foo\" AS (\n       SELECT \"a\",\"b\"\n         FROM \"t\")\nSELECT \"foo\".\"a\"") := printed_of_parserN _ 60 (by krfl)
example : printed {} (queryFromSql (c% "WITH foo AS (SELECT a,b FROM t) SELECT foo.a")) =
    .ok (c% "WITH \"foo\" AS (SELECT \"a\",\"b\" FROM \"t\") SELECT \"foo\".\"a\"") := printed_of_parserN _ 60 (by krfl)
-- README.md 144-152
example : printed {} (queryFromSql (c% "SELECT (((1+2)*3)/4)-10")) = .ok (c% "SELECT (1 + 2) * 3 / 4 - 10") := printed_of_parserN _ 60 (by krfl)
example : printed {} (queryFromSql (c% "SELECT (TRUE OR TRUE) AND FALSE")) = .ok (c% "SELECT (TRUE OR TRUE) AND FALSE") := printed_of_parserN _ 60 (by krfl)
example : printed {} (queryFromSql (c% "SELECT TRUE OR (TRUE AND FALSE)")) = .ok (c% "SELECT TRUE OR TRUE AND FALSE") := printed_of_parserN _ 60 (by krfl)
-- README.md 158-160
example : printed {} (queryFromSql (c% "SELECT CAST(3 AS DECIMAL(29,1))")) = .ok (c% "SELECT CAST(3 AS DECIMAL(29,1))") := printed_of_parserN _ 60 (by krfl)

/-- `Table("a")` -/
def tableA : TableRef := ⟨c% "a", none, none, []⟩
/-- `Field("a")` -/
def fieldA : Expr := .field (c% "a") none .unknown
def int (n : Int) : Expr := .lit (some (.int n)) (.simple .integer)
/-- The query of treeno/base.py 107 and treeno/relation.py 417-421. -/
def docQuery : Query := .mk (.select [.alias (int 2) (c% "foo"), .bin .div fieldA (int 5)] (some (.table tableA)) (some (.bin .gt fieldA (int 5))) none none false []) none none [] []

-- treeno/base.py 104-112, treeno/relation.py 423-424
example : docQuery.sql {} = .ok (c% "SELECT 2 \"foo\",\"a\" / 5 FROM \"a\" WHERE \"a\" > 5") := by krfl
example : docQuery.sql { mode := .pretty, spaces := 2 } = .ok (c% "SELECT 2 \"foo\",\"a\" / 5\n  FROM \"a\"\n WHERE \"a\" > 5") := by krfl
-- treeno/relation.py 426-432
example : (docQuery.resolve .empty).map (fun p => p.2.fields.map (fun f => (f.name, f.ty.sql))) =
    .ok [(some (c% "foo"), c% "INTEGER"), (none, c% "UNKNOWN")] := by krfl
-- treeno/relation.py 433-435
example : ∃ t h', resolveAt 4 .empty 0 (fun r => match r with
      | 0 => some (.select [.alias (int 2) (c% "foo"), .bin .div fieldA (int 5)] (some 1) (some (.bin .gt fieldA (int 5))) none none false [] none none [] [] .unknown)
      | 1 => some (.table tableA)
      | _ => none) = some (.ok t, h') ∧ (match h' 0 with
      | some (.select _ _ _ _ _ _ _ _ _ _ _ dt) => some dt.sql
      | _ => none) = some (c% "ROW(INTEGER,UNKNOWN)") := ⟨_, _, rfl, rfl⟩
-- treeno/expression.py 183-200
example : Expr.check (.lit (some (.str (c% "a"))) .unknown) = .error .assertion := by krfl
example : (wrapLiteral (.py (.str (c% "a"))) >>= Expr.check).map Ty.sql = .ok (c% "VARCHAR(1)") := by krfl
example : (wrapLiteral (.py (.bool true)) >>= Expr.check).map Ty.sql = .ok (c% "BOOLEAN") := by krfl
example : (wrapLiteral (.py (.int 1)) >>= Expr.check).map Ty.sql = .ok (c% "INTEGER") := by krfl
example : (wrapLiteral (.py (.int 100000000000)) >>= Expr.check).map Ty.sql = .ok (c% "BIGINT") := by krfl
example : (wrapLiteral (.py (.float (c% "2.2"))) >>= Expr.check).map Ty.sql = .ok (c% "DOUBLE") := by krfl
example : (wrapLiteral (.py (.dec ⟨false, 22, -1⟩)) >>= Expr.check).map Ty.sql = .ok (c% "DECIMAL(2,1)") := by krfl
/-- `SelectQuery([NULL])` -/
def selectNull : Query := .mk (.select [.lit none .unknown] none none none none false []) none none [] []
-- treeno/relation.py 351-358, 377-384, 400-405
example : (Query.mk (.set .intersect selectNull selectNull true) none none [] []).sql {} = .ok (c% "(SELECT NULL) INTERSECT DISTINCT (SELECT NULL)") := by krfl
example : (Query.mk (.set .except selectNull selectNull true) none none [] []).sql {} = .ok (c% "(SELECT NULL) EXCEPT DISTINCT (SELECT NULL)") := by krfl
example : (Query.mk (.set .union selectNull selectNull true) none none [] []).sql {} = .ok (c% "(SELECT NULL) UNION DISTINCT (SELECT NULL)") := by krfl
example : (Query.mk (.set .union selectNull selectNull false) none none [] []).sql {} = .ok (c% "(SELECT NULL) UNION ALL (SELECT NULL)") := by krfl
-- treeno/relation.py 614-615
example : (Query.mk (.table ⟨c% "x", none, none, []⟩) none none [] []).sql {} = .ok (c% "TABLE \"x\"") := by krfl
-- treeno/relation.py 356-358, 382-384
example : (Query.mk (.set .intersect selectNull selectNull false) none none [] []).check = .error .assertion := by krfl
example : (Query.mk (.set .except selectNull selectNull false) none none [] []).check = .error .assertion := by krfl
-- treeno/relation.py 662-683
example : (Query.mk (.values [int 1, .lit (some (.dec ⟨false, 22, -1⟩)) (.decimal 2 1)]) none none [] []).sql {} = .ok (c% "VALUES 1,2.2") := by krfl
example : (Query.mk (.values [int 1, .lit (some (.dec ⟨false, 22, -1⟩)) (.decimal 2 1)]) none none [] []).check.map Ty.sql = .ok (c% "DECIMAL(11,1)") := by krfl
def docRows : Query := .mk (.values [.row [int 1, .lit (some (.str (c% "a"))) (.varchar (some 1))], .row [int 2, .lit (some (.str (c% "b"))) (.varchar (some 1))]]) none none [] []
example : docRows.sql {} = .ok (c% "VALUES (1,'a'),(2,'b')") := by krfl
example : docRows.check.map Ty.sql = .ok (c% "ROW(INTEGER,VARCHAR(1))") := by krfl
-- treeno/relation.py 725-731
example : ((Rel.aliased (.mk (.query (.mk (.select [int 1, .lit (some (.str (c% "2"))) (.varchar (some 1))] none none none none false []) none none [] [])) (c% "query")
      [c% "x", c% "y"])).resolve .empty).map (fun p => (p.2.fields.map (·.name), p.2.ids)) = .ok ([some (c% "x"), some (c% "y")], [c% "query"]) := by krfl
-- treeno/relation.py 160-165
example : (Schema.merge ⟨[⟨some (c% "x"), .table (c% "a") none none, .simple .bigint⟩], [c% "a"]⟩ ⟨[⟨some (c% "y"), .table (c% "b") none none, .simple .bigint⟩], [c% "b"]⟩) =
    .ok ⟨[⟨some (c% "x"), .table (c% "a") none none, .simple .bigint⟩, ⟨some (c% "y"), .table (c% "b") none none, .simple .bigint⟩], [c% "a", c% "b"]⟩ := by krfl
-- treeno/relation.py 551-561
def columnX : Col := ⟨some (c% "x"), .table (c% "a") none none, .simple .bigint⟩
example : tableA.resolve ⟨[columnX], [c% "a"]⟩ = (⟨c% "a", none, none, [columnX]⟩, ⟨[columnX], [c% "a"]⟩) := by krfl
-- README.md 60-75.  The tree there shows attributes with default values (`null_treatment`, `select_quantifier`), which the
-- code leaves out, and no `<list>` nodes, which it has.
example : ((parserN 60 .query (toks (c% "SELECT COUNT(*) FROM t LIMIT 10"))).map fun p => (do
      let q ← p.1.conv
      let q ← resolveObject q
      let t ← q.obj.treeify
      prettyPrint t)) = some (.ok (.node (c% "SelectQuery") [.node (c% "data_type") [.leaf (c% "BIGINT")], .node (c% "limit") [.leaf (c% "10")],
      .node (c% "select") [.node (c% "<list>") [.node (c% "Count") [.node (c% "data_type") [.leaf (c% "BIGINT")],
        .node (c% "value") [.node (c% "Star") [.node (c% "data_type") [.leaf (c% "ROW()")]]]]]],
      .node (c% "from_") [.node (c% "Table") [.node (c% "name") [.leaf (c% "t")]]]])) := by krfl
end Treeno.Conformance
