import Verif.Schema
import Verif.Lemmas.Krfl
/-!
# Conformance of nodes, printers and types with the project's unit tests

The values expected by tests/test_expression.py, test_relations.py, test_printer.py, test_datatypes.py and
test_datatypes_resolve.py, checked by the kernel on the model.  These are tests of the model; no theorem depends on them.
The final comparison of test_datatypes_resolve.py is between two values with `==`, which builds an `Equal` node and never
fails; what the code computes there is the tree below, in which the last field is found in table "c" although its name is not.
-/
set_option autoImplicit false
namespace Treeno.Conformance
open Treeno

-- test_expression.py 36-48
example : Expr.check (.bin .add (.lit (some (.int 1)) (.simple .smallint)) (.lit (some (.int 1)) (.simple .smallint))) = .ok (.simple .smallint) := by krfl
-- test_expression.py 36-48
example : Expr.check (.bin .add (.lit (some (.int 3)) (.simple .integer)) (.lit (some (.int 3)) (.simple .integer))) = .ok (.simple .integer) := by krfl
-- test_expression.py 36-48
example : Expr.check (.bin .add (.lit (some (.float (c% "3.5"))) (.simple .double)) (.lit (some (.float (c% "3.5"))) (.simple .double))) = .ok (.simple .double) := by krfl
-- test_expression.py 36-48
example : Expr.check (.bin .add (.lit (some (.dec ⟨false, 314, -2⟩)) (.decimal 3 2)) (.lit (some (.dec ⟨false, 314, -2⟩)) (.decimal 3 2))) = .ok (.decimal 3 2) := by krfl
-- test_expression.py 36-48
example : Expr.check (.bin .add (.lit (some (.int 1)) (.simple .smallint)) (.lit (some (.int 3)) (.simple .integer))) = .ok (.simple .integer) := by krfl
-- test_expression.py 36-48
example : Expr.check (.bin .add (.lit (some (.int 1)) (.simple .smallint)) (.lit (some (.float (c% "3.5"))) (.simple .double))) = .ok (.simple .double) := by krfl
-- test_expression.py 36-48
example : Expr.check (.bin .add (.lit (some (.int 1)) (.simple .smallint)) (.lit (some (.dec ⟨false, 314, -2⟩)) (.decimal 3 2))) = .ok (.decimal 7 2) := by krfl
-- test_expression.py 36-48
example : Expr.check (.bin .add (.lit (some (.int 3)) (.simple .integer)) (.lit (some (.float (c% "3.5"))) (.simple .double))) = .ok (.simple .double) := by krfl
-- test_expression.py 36-48
example : Expr.check (.bin .add (.lit (some (.int 3)) (.simple .integer)) (.lit (some (.dec ⟨false, 314, -2⟩)) (.decimal 3 2))) = .ok (.decimal 12 2) := by krfl
-- test_expression.py 36-48
example : Expr.check (.bin .add (.lit (some (.float (c% "3.5"))) (.simple .double)) (.lit (some (.dec ⟨false, 314, -2⟩)) (.decimal 3 2))) = .ok (.simple .double) := by krfl
-- test_expression.py 36-48
example : Expr.check (.bin .sub (.lit (some (.int 1)) (.simple .smallint)) (.lit (some (.int 1)) (.simple .smallint))) = .ok (.simple .smallint) := by krfl
-- test_expression.py 36-48
example : Expr.check (.bin .sub (.lit (some (.int 3)) (.simple .integer)) (.lit (some (.int 3)) (.simple .integer))) = .ok (.simple .integer) := by krfl
-- test_expression.py 36-48
example : Expr.check (.bin .sub (.lit (some (.float (c% "3.5"))) (.simple .double)) (.lit (some (.float (c% "3.5"))) (.simple .double))) = .ok (.simple .double) := by krfl
-- test_expression.py 36-48
example : Expr.check (.bin .sub (.lit (some (.dec ⟨false, 314, -2⟩)) (.decimal 3 2)) (.lit (some (.dec ⟨false, 314, -2⟩)) (.decimal 3 2))) = .ok (.decimal 3 2) := by krfl
-- test_expression.py 36-48
example : Expr.check (.bin .sub (.lit (some (.int 1)) (.simple .smallint)) (.lit (some (.int 3)) (.simple .integer))) = .ok (.simple .integer) := by krfl
-- test_expression.py 36-48
example : Expr.check (.bin .sub (.lit (some (.int 1)) (.simple .smallint)) (.lit (some (.float (c% "3.5"))) (.simple .double))) = .ok (.simple .double) := by krfl
-- test_expression.py 36-48
example : Expr.check (.bin .sub (.lit (some (.int 1)) (.simple .smallint)) (.lit (some (.dec ⟨false, 314, -2⟩)) (.decimal 3 2))) = .ok (.decimal 7 2) := by krfl
-- test_expression.py 36-48
example : Expr.check (.bin .sub (.lit (some (.int 3)) (.simple .integer)) (.lit (some (.float (c% "3.5"))) (.simple .double))) = .ok (.simple .double) := by krfl
-- test_expression.py 36-48
example : Expr.check (.bin .sub (.lit (some (.int 3)) (.simple .integer)) (.lit (some (.dec ⟨false, 314, -2⟩)) (.decimal 3 2))) = .ok (.decimal 12 2) := by krfl
-- test_expression.py 36-48
example : Expr.check (.bin .sub (.lit (some (.float (c% "3.5"))) (.simple .double)) (.lit (some (.dec ⟨false, 314, -2⟩)) (.decimal 3 2))) = .ok (.simple .double) := by krfl
-- test_expression.py 36-48
example : Expr.check (.bin .mul (.lit (some (.int 1)) (.simple .smallint)) (.lit (some (.int 1)) (.simple .smallint))) = .ok (.simple .smallint) := by krfl
-- test_expression.py 36-48
example : Expr.check (.bin .mul (.lit (some (.int 3)) (.simple .integer)) (.lit (some (.int 3)) (.simple .integer))) = .ok (.simple .integer) := by krfl
-- test_expression.py 36-48
example : Expr.check (.bin .mul (.lit (some (.float (c% "3.5"))) (.simple .double)) (.lit (some (.float (c% "3.5"))) (.simple .double))) = .ok (.simple .double) := by krfl
-- test_expression.py 36-48
example : Expr.check (.bin .mul (.lit (some (.dec ⟨false, 314, -2⟩)) (.decimal 3 2)) (.lit (some (.dec ⟨false, 314, -2⟩)) (.decimal 3 2))) = .ok (.decimal 3 2) := by krfl
-- test_expression.py 36-48
example : Expr.check (.bin .mul (.lit (some (.int 1)) (.simple .smallint)) (.lit (some (.int 3)) (.simple .integer))) = .ok (.simple .integer) := by krfl
-- test_expression.py 36-48
example : Expr.check (.bin .mul (.lit (some (.int 1)) (.simple .smallint)) (.lit (some (.float (c% "3.5"))) (.simple .double))) = .ok (.simple .double) := by krfl
-- test_expression.py 36-48
example : Expr.check (.bin .mul (.lit (some (.int 1)) (.simple .smallint)) (.lit (some (.dec ⟨false, 314, -2⟩)) (.decimal 3 2))) = .ok (.decimal 7 2) := by krfl
-- test_expression.py 36-48
example : Expr.check (.bin .mul (.lit (some (.int 3)) (.simple .integer)) (.lit (some (.float (c% "3.5"))) (.simple .double))) = .ok (.simple .double) := by krfl
-- test_expression.py 36-48
example : Expr.check (.bin .mul (.lit (some (.int 3)) (.simple .integer)) (.lit (some (.dec ⟨false, 314, -2⟩)) (.decimal 3 2))) = .ok (.decimal 12 2) := by krfl
-- test_expression.py 36-48
example : Expr.check (.bin .mul (.lit (some (.float (c% "3.5"))) (.simple .double)) (.lit (some (.dec ⟨false, 314, -2⟩)) (.decimal 3 2))) = .ok (.simple .double) := by krfl
-- test_expression.py 36-48
example : Expr.check (.bin .div (.lit (some (.int 1)) (.simple .smallint)) (.lit (some (.int 1)) (.simple .smallint))) = .ok (.simple .smallint) := by krfl
-- test_expression.py 36-48
example : Expr.check (.bin .div (.lit (some (.int 3)) (.simple .integer)) (.lit (some (.int 3)) (.simple .integer))) = .ok (.simple .integer) := by krfl
-- test_expression.py 36-48
example : Expr.check (.bin .div (.lit (some (.float (c% "3.5"))) (.simple .double)) (.lit (some (.float (c% "3.5"))) (.simple .double))) = .ok (.simple .double) := by krfl
-- test_expression.py 36-48
example : Expr.check (.bin .div (.lit (some (.dec ⟨false, 314, -2⟩)) (.decimal 3 2)) (.lit (some (.dec ⟨false, 314, -2⟩)) (.decimal 3 2))) = .ok (.decimal 3 2) := by krfl
-- test_expression.py 36-48
example : Expr.check (.bin .div (.lit (some (.int 1)) (.simple .smallint)) (.lit (some (.int 3)) (.simple .integer))) = .ok (.simple .integer) := by krfl
-- test_expression.py 36-48
example : Expr.check (.bin .div (.lit (some (.int 1)) (.simple .smallint)) (.lit (some (.float (c% "3.5"))) (.simple .double))) = .ok (.simple .double) := by krfl
-- test_expression.py 36-48
example : Expr.check (.bin .div (.lit (some (.int 1)) (.simple .smallint)) (.lit (some (.dec ⟨false, 314, -2⟩)) (.decimal 3 2))) = .ok (.decimal 7 2) := by krfl
-- test_expression.py 36-48
example : Expr.check (.bin .div (.lit (some (.int 3)) (.simple .integer)) (.lit (some (.float (c% "3.5"))) (.simple .double))) = .ok (.simple .double) := by krfl
-- test_expression.py 36-48
example : Expr.check (.bin .div (.lit (some (.int 3)) (.simple .integer)) (.lit (some (.dec ⟨false, 314, -2⟩)) (.decimal 3 2))) = .ok (.decimal 12 2) := by krfl
-- test_expression.py 36-48
example : Expr.check (.bin .div (.lit (some (.float (c% "3.5"))) (.simple .double)) (.lit (some (.dec ⟨false, 314, -2⟩)) (.decimal 3 2))) = .ok (.simple .double) := by krfl
-- test_expression.py 56-65
example : Expr.check (.bin .sub (.typeCtor (c% "2021-01-01") (c% "DATE")) (.typeCtor (c% "2021-01-01") (c% "DATE"))) = .ok (.interval .dayToSecond) := by krfl
-- test_expression.py 56-65
example : Expr.check (.bin .sub (.typeCtor (c% "01:00:00") (c% "TIME")) (.typeCtor (c% "01:00:00") (c% "TIME"))) = .ok (.interval .dayToSecond) := by krfl
-- test_expression.py 56-65
example : Expr.check (.bin .sub (.typeCtor (c% "2021-01-01 01:00:00") (c% "TIMESTAMP")) (.typeCtor (c% "2021-01-01 01:00:00") (c% "TIMESTAMP"))) = .ok (.interval .dayToSecond) := by krfl
-- test_expression.py 56-65
example : Expr.check (.bin .sub (.typeCtor (c% "2021-01-01") (c% "DATE")) (.typeCtor (c% "2021-01-01 01:00:00") (c% "TIMESTAMP"))) = .ok (.interval .dayToSecond) := by krfl
-- test_expression.py 56-65
example : Expr.check (.bin .sub (.typeCtor (c% "2021-01-01 01:00:00") (c% "TIMESTAMP")) (.typeCtor (c% "2021-01-01") (c% "DATE"))) = .ok (.interval .dayToSecond) := by krfl
-- test_expression.py 56-65
example : Expr.check (.bin .sub (.typeCtor (c% "2021-01-01") (c% "DATE")) (.typeCtor (c% "01:00:00") (c% "TIME"))) = .ok (.simple .unknown) := by krfl
-- test_expression.py 56-65
example : Expr.check (.bin .sub (.typeCtor (c% "2021-01-01 01:00:00") (c% "TIMESTAMP")) (.typeCtor (c% "01:00:00") (c% "TIME"))) = .ok (.simple .unknown) := by krfl
-- test_relations.py 22
example : Rel.sql {} (.table ⟨c% "table", some (c% "schema"), some (c% "catalog"), []⟩) = .ok (c% "\"catalog\".\"schema\".\"table\"") := by krfl
-- test_relations.py 25-29
example : Query.sql {mode := .default} (.mk (.table ⟨c% "table", some (c% "schema"), some (c% "catalog"), []⟩) none none [] []) = .ok (c% "TABLE \"catalog\".\"schema\".\"table\"") := by krfl
-- test_relations.py 25-29
example : Query.sql {mode := .pretty} (.mk (.table ⟨c% "table", some (c% "schema"), some (c% "catalog"), []⟩) none none [] []) = .ok (c% "TABLE \"catalog\".\"schema\".\"table\"") := by krfl
-- test_relations.py 32-48
example : Query.sql {mode := .default} (.mk (.table ⟨c% "table", some (c% "schema"), some (c% "catalog"), []⟩) (some 2) (some 5) [.mk (.field (c% "x") none (.simple .unknown)) true false] []) = .ok (c% "TABLE \"catalog\".\"schema\".\"table\" ORDER BY \"x\" DESC OFFSET 2 LIMIT 5") := by krfl
-- test_relations.py 32-48
example : Query.sql {mode := .pretty} (.mk (.table ⟨c% "table", some (c% "schema"), some (c% "catalog"), []⟩) (some 2) (some 5) [.mk (.field (c% "x") none (.simple .unknown)) true false] []) = .ok (c% " TABLE \"catalog\".\"schema\".\"table\"\n ORDER BY \"x\" DESC\nOFFSET 2\n LIMIT 5") := by krfl
-- test_relations.py 51-56
example : Query.sql {mode := .default} (.mk (.values [.lit (some (.int 1)) (.simple .integer), .lit (some (.int 2)) (.simple .integer), .lit (some (.int 3)) (.simple .integer)]) none none [] []) = .ok (c% "VALUES 1,2,3") := by krfl
-- test_relations.py 51-56
example : Query.sql {mode := .pretty} (.mk (.values [.lit (some (.int 1)) (.simple .integer), .lit (some (.int 2)) (.simple .integer), .lit (some (.int 3)) (.simple .integer)]) none none [] []) = .ok (c% "VALUES 1,2,3") := by krfl
-- test_relations.py 58-71
example : Query.sql {mode := .default} (.mk (.values [.lit (some (.int 1)) (.simple .integer), .lit (some (.int 2)) (.simple .integer), .lit (some (.int 3)) (.simple .integer)]) (some 3) none [] [.mk (.query (.mk (.table ⟨c% "foo", none, none, []⟩) none none [] [])) (c% "foo") []]) = .ok (c% "WITH \"foo\" AS (TABLE \"foo\") VALUES 1,2,3 OFFSET 3") := by krfl
-- test_relations.py 58-71
example : Query.sql {mode := .pretty} (.mk (.values [.lit (some (.int 1)) (.simple .integer), .lit (some (.int 2)) (.simple .integer), .lit (some (.int 3)) (.simple .integer)]) (some 3) none [] [.mk (.query (.mk (.table ⟨c% "foo", none, none, []⟩) none none [] [])) (c% "foo") []]) = .ok (c% "  WITH \"foo\" AS (\n       TABLE \"foo\")\nVALUES 1,2,3\nOFFSET 3") := by krfl
-- test_relations.py 74-81
example : Rel.sql {mode := .default} (.sample (.table ⟨c% "table", none, none, []⟩) .bernoulli (.lit (some (.float (c% "0.3"))) (.simple .double))) = .ok (c% "\"table\" TABLESAMPLE BERNOULLI(0.3)") := by krfl
-- test_relations.py 74-81
example : Rel.sql {mode := .pretty} (.sample (.table ⟨c% "table", none, none, []⟩) .bernoulli (.lit (some (.float (c% "0.3"))) (.simple .double))) = .ok (c% "\"table\" TABLESAMPLE BERNOULLI(0.3)") := by krfl
-- test_relations.py 84-89
example : Rel.sql {mode := .default} (.lateral (.mk (.table ⟨c% "table", none, none, []⟩) none none [] [])) = .ok (c% "LATERAL(TABLE \"table\")") := by krfl
-- test_relations.py 84-89
example : Rel.sql {mode := .pretty} (.lateral (.mk (.table ⟨c% "table", none, none, []⟩) none none [] [])) = .ok (c% "LATERAL(TABLE \"table\")") := by krfl
-- test_relations.py 92-97
example : Rel.sql {mode := .default} (.unnest [.array [.lit (some (.int 1)) (.simple .integer)]] false) = .ok (c% "UNNEST(ARRAY[1])") := by krfl
-- test_relations.py 92-97
example : Rel.sql {mode := .pretty} (.unnest [.array [.lit (some (.int 1)) (.simple .integer)]] false) = .ok (c% "UNNEST(ARRAY[1])") := by krfl
-- test_printer.py 10-20
example : stmtString true [(c% "SELECT", c% "1,2,3"), (c% "FROM", c% "t"), (c% "WHERE", c% "x>y"), (c% "ORDER", c% "BY x"), (c% "LIMIT", c% "5")] {mode := .pretty} = c% "SELECT 1,2,3\n  FROM t\n WHERE x>y\n ORDER BY x\n LIMIT 5" := by krfl
-- test_printer.py 21-24
example : stmtString true [(c% "SELECT", c% "1,2,3"), (c% "FROM", c% "t"), (c% "WHERE", c% "x>y"), (c% "ORDER", c% "BY x"), (c% "LIMIT", c% "5")] {} = c% "SELECT 1,2,3 FROM t WHERE x>y ORDER BY x LIMIT 5" := by krfl
-- test_printer.py 26-68
example : joinPrinter (c% ",") 10 [c% "123", c% "456", c% "789"] {mode := .pretty, spaces := 0} = .ok (c% "123,456,\n789") := by krfl
-- test_printer.py 26-68
example : joinPrinter (c% ",") 10 [c% "123", c% "456", c% "789"] {mode := .default, spaces := 0} = .ok (c% "123,456,789") := by krfl
-- test_printer.py 26-68
example : joinPrinter (c% ",") 10 [c% "1234567890"] {mode := .pretty, spaces := 0} = .ok (c% "1234567890") := by krfl
-- test_printer.py 26-68
example : joinPrinter (c% ",") 10 [c% "1234567890"] {mode := .default, spaces := 0} = .ok (c% "1234567890") := by krfl
-- test_printer.py 26-68
example : joinPrinter (c% ",") 10 [c% "12", c% "34", c% "56", c% "67"] {mode := .pretty, spaces := 4} = .ok (c% "12,34,\n56,67") := by krfl
-- test_printer.py 26-68
example : joinPrinter (c% ",") 10 [c% "12", c% "34", c% "56", c% "67"] {mode := .pretty, spaces := 5} = .ok (c% "12,\n34,\n56,67") := by krfl
-- test_printer.py 26-68
example : joinPrinter (c% ",") 10 [c% "12345678901"] {mode := .pretty, spaces := 0} = .ok (c% "12345678901") := by krfl
-- test_datatypes.py
example : (mkType (c% "BOOLEAN") []).map Ty.sql = .ok (c% "BOOLEAN") := by krfl
-- test_datatypes.py
example : (mkType (c% "TINYINT") []).map Ty.sql = .ok (c% "TINYINT") := by krfl
-- test_datatypes.py
example : (mkType (c% "SMALLINT") []).map Ty.sql = .ok (c% "SMALLINT") := by krfl
-- test_datatypes.py
example : (mkType (c% "INTEGER") []).map Ty.sql = .ok (c% "INTEGER") := by krfl
-- test_datatypes.py
example : (mkType (c% "BIGINT") []).map Ty.sql = .ok (c% "BIGINT") := by krfl
-- test_datatypes.py
example : (mkType (c% "REAL") []).map Ty.sql = .ok (c% "REAL") := by krfl
-- test_datatypes.py
example : (mkType (c% "DOUBLE") []).map Ty.sql = .ok (c% "DOUBLE") := by krfl
-- test_datatypes.py
example : (mkType (c% "VARBINARY") []).map Ty.sql = .ok (c% "VARBINARY") := by krfl
-- test_datatypes.py
example : (mkType (c% "JSON") []).map Ty.sql = .ok (c% "JSON") := by krfl
-- test_datatypes.py
example : (mkType (c% "DATE") []).map Ty.sql = .ok (c% "DATE") := by krfl
-- test_datatypes.py
example : (mkType (c% "UNKNOWN") []).map Ty.sql = .ok (c% "UNKNOWN") := by krfl
-- test_datatypes.py
example : (mkType (c% "IPADDRESS") []).map Ty.sql = .ok (c% "IPADDRESS") := by krfl
-- test_datatypes.py
example : (mkType (c% "UUID") []).map Ty.sql = .ok (c% "UUID") := by krfl
-- test_datatypes.py
example : (mkType (c% "HYPERLOGLOG") []).map Ty.sql = .ok (c% "HYPERLOGLOG") := by krfl
-- test_datatypes.py
example : (mkType (c% "P4HYPERLOGLOG") []).map Ty.sql = .ok (c% "P4HYPERLOGLOG") := by krfl
-- test_datatypes.py
example : (mkType (c% "TDIGEST") []).map Ty.sql = .ok (c% "TDIGEST") := by krfl
-- test_datatypes.py
example : (mkType (c% "QDIGEST") [(c% "dtype", .dtype (.simple .double))]).map Ty.sql = .ok (c% "QDIGEST(DOUBLE)") := by krfl
-- test_datatypes.py
example : (mkType (c% "DECIMAL") []).map Ty.sql = .ok (c% "DECIMAL(38,0)") := by krfl
-- test_datatypes.py
example : (mkType (c% "DECIMAL") [(c% "precision", .int 30)]).map Ty.sql = .ok (c% "DECIMAL(30,0)") := by krfl
-- test_datatypes.py
example : (mkType (c% "DECIMAL") [(c% "scale", .int 10)]).map Ty.sql = .ok (c% "DECIMAL(38,10)") := by krfl
-- test_datatypes.py
example : (mkType (c% "DECIMAL") [(c% "precision", .int 30), (c% "scale", .int 10)]).map Ty.sql = .ok (c% "DECIMAL(30,10)") := by krfl
-- test_datatypes.py
example : (mkType (c% "DECIMAL") [(c% "precision", .int 3000)]) = .error .assertion := by krfl
-- test_datatypes.py
example : (mkType (c% "TIMESTAMP") []).map Ty.sql = .ok (c% "TIMESTAMP") := by krfl
-- test_datatypes.py
example : (mkType (c% "TIMESTAMP") [(c% "timezone", .bool true)]).map Ty.sql = .ok (c% "TIMESTAMP WITH TIME ZONE") := by krfl
-- test_datatypes.py
example : (mkType (c% "TIMESTAMP") [(c% "precision", .int 9)]).map Ty.sql = .ok (c% "TIMESTAMP(9)") := by krfl
-- test_datatypes.py
example : (mkType (c% "TIMESTAMP") [(c% "timezone", .bool true), (c% "precision", .int 6)]).map Ty.sql = .ok (c% "TIMESTAMP(6) WITH TIME ZONE") := by krfl
-- test_datatypes.py
example : (mkType (c% "TIME") []).map Ty.sql = .ok (c% "TIME") := by krfl
-- test_datatypes.py
example : (mkType (c% "TIME") [(c% "timezone", .bool true)]).map Ty.sql = .ok (c% "TIME WITH TIME ZONE") := by krfl
-- test_datatypes.py
example : (mkType (c% "TIME") [(c% "precision", .int 9)]).map Ty.sql = .ok (c% "TIME(9)") := by krfl
-- test_datatypes.py
example : (mkType (c% "TIME") [(c% "timezone", .bool true), (c% "precision", .int 6)]).map Ty.sql = .ok (c% "TIME(6) WITH TIME ZONE") := by krfl
-- test_datatypes.py
example : (mkType (c% "TIMESTAMP") [(c% "precision", .int 2000)]) = .error .assertion := by krfl
-- test_datatypes.py
example : (mkType (c% "INTERVAL") [(c% "from_interval", .str (c% "YEAR")), (c% "to_interval", .str (c% "MONTH"))]).map Ty.sql = .ok (c% "INTERVAL YEAR TO MONTH") := by krfl
-- test_datatypes.py
example : (mkType (c% "INTERVAL") [(c% "from_interval", .str (c% "DAY")), (c% "to_interval", .str (c% "SECOND"))]).map Ty.sql = .ok (c% "INTERVAL DAY TO SECOND") := by krfl
-- test_datatypes.py
example : (mkType (c% "INTERVAL") []) = .error .assertion := by krfl
-- test_datatypes.py
example : (mkType (c% "INTERVAL") [(c% "from_interval", .str (c% "SECOND"))]) = .error .assertion := by krfl
-- test_datatypes.py
example : (mkType (c% "INTERVAL") [(c% "from_interval", .str (c% "YEAR")), (c% "to_interval", .str (c% "SECOND"))]) = .error .assertion := by krfl
-- test_datatypes.py
example : (mkType (c% "INTERVAL") [(c% "from_interval", .str (c% "DAY")), (c% "to_interval", .str (c% "HOUR"))]) = .error .assertion := by krfl
-- test_datatypes.py
example : (mkType (c% "ARRAY") [(c% "dtype", .dtype (.simple .integer))]).map Ty.sql = .ok (c% "ARRAY(INTEGER)") := by krfl
-- test_datatypes.py
example : (mkType (c% "ARRAY") [(c% "dtype", .str (c% "int"))]) = .error .assertion := by krfl
-- test_datatypes.py
example : (mkType (c% "MAP") [(c% "from_dtype", .dtype (.simple .integer)), (c% "to_dtype", .dtype (.varchar (some 3)))]).map Ty.sql = .ok (c% "MAP(INTEGER,VARCHAR(3))") := by krfl
-- test_datatypes.py
example : (mkType (c% "MAP") [(c% "from_dtype", .str (c% "int")), (c% "to_dtype", .dtype (.simple .boolean))]) = .error .assertion := by krfl
-- test_datatypes.py
example : (mkType (c% "ROW") [(c% "dtypes", .list [.dtype (.simple .integer), .dtype (.map (.array (.simple .boolean)) (.decimal 38 1))])]).map Ty.sql = .ok (c% "ROW(INTEGER,MAP(ARRAY(BOOLEAN),DECIMAL(38,1)))") := by krfl
-- test_datatypes.py
example : (mkType (c% "ROW") [(c% "dtypes", .list [.dtype (.simple .boolean), .int 3])]) = .error .assertion := by krfl
-- test_datatypes_resolve.py 14-44
example :
    let sch : Schema := ⟨[⟨some (c% "x"), .table (c% "a") none none, .simple .bigint⟩,
      ⟨some (c% "y"), .table (c% "b") none none, .simple .bigint⟩,
      ⟨some (c% "z"), .table (c% "c") none none, .simple .bigint⟩], [c% "a", c% "b", c% "c"]⟩
    let tree := fun t : Ty => Expr.bin .add
      (.func .concat [.bin .add (.lit (some (.int 3)) (.simple .integer)) (.field (c% "x") none t),
        .bin .sub (.lit (some (.int 2)) (.simple .integer)) (.field (c% "y") (some (c% "a")) t)])
      (.bin .div (.field (c% "z") (some (c% "b")) t) (.field (c% "w") (some (c% "c")) t))
    resolveFields sch (tree (.simple .unknown)) = .ok (tree (.simple .bigint)) := by intro sch tree; krfl

end Treeno.Conformance
