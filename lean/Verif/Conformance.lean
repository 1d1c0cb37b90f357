import Verif.Convert
/-!
# Conformance of the model with the project's own expected outputs

Every statement of /repo/tests/resources/statements.sql, parsed, converted and printed by the model, gives
exactly the text of generated_statements.sql (default mode) and pretty_generated_statements.sql (pretty
mode), and the generated texts are fixed points.  These are tests of the model, run when this file is
built; no theorem depends on them.
-/
namespace Treeno.Conformance

/-- Parse, convert, print. -/
def fmt (m : Mode) (s : String) : Option Str :=
  match queryFromSqlN 300 s.toList with
  | .ok (some q) => match q.sql {mode := m} with
    | .ok t => some t
    | .error _ => none
  | _ => none

#guard fmt .default "SELECT 1" == some "SELECT 1".toList
#guard fmt .pretty "SELECT 1" == some "SELECT 1".toList
#guard fmt .default "SELECT 1+2" == some "SELECT 1 + 2".toList
#guard fmt .pretty "SELECT 1+2" == some "SELECT 1 + 2".toList
#guard fmt .default "SELECT 1 + 2" == some "SELECT 1 + 2".toList
#guard fmt .pretty "SELECT 1 + 2" == some "SELECT 1 + 2".toList
#guard fmt .default "SELECT 1*2" == some "SELECT 1 * 2".toList
#guard fmt .pretty "SELECT 1*2" == some "SELECT 1 * 2".toList
#guard fmt .default "SELECT 1 * 2" == some "SELECT 1 * 2".toList
#guard fmt .pretty "SELECT 1 * 2" == some "SELECT 1 * 2".toList
#guard fmt .default "SELECT 1%2 IS NULL" == some "SELECT 1 % 2 IS NULL".toList
#guard fmt .pretty "SELECT 1%2 IS NULL" == some "SELECT 1 % 2 IS NULL".toList
#guard fmt .default "SELECT 1 % 2 IS NULL" == some "SELECT 1 % 2 IS NULL".toList
#guard fmt .pretty "SELECT 1 % 2 IS NULL" == some "SELECT 1 % 2 IS NULL".toList
#guard fmt .default "SELECT (1+2)*(3/4)-10" == some "SELECT (1 + 2) * (3 / 4) - 10".toList
#guard fmt .pretty "SELECT (1+2)*(3/4)-10" == some "SELECT (1 + 2) * (3 / 4) - 10".toList
#guard fmt .default "SELECT (1 + 2) * (3 / 4) - 10" == some "SELECT (1 + 2) * (3 / 4) - 10".toList
#guard fmt .pretty "SELECT (1 + 2) * (3 / 4) - 10" == some "SELECT (1 + 2) * (3 / 4) - 10".toList
#guard fmt .default "SELECT NOT (NULL IS NULL)" == some "SELECT NULL IS NOT NULL".toList
#guard fmt .pretty "SELECT NOT (NULL IS NULL)" == some "SELECT NULL IS NOT NULL".toList
#guard fmt .default "SELECT NULL IS NOT NULL" == some "SELECT NULL IS NOT NULL".toList
#guard fmt .pretty "SELECT NULL IS NOT NULL" == some "SELECT NULL IS NOT NULL".toList
#guard fmt .default "SELECT 2 BETWEEN 1 AND 3" == some "SELECT 2 BETWEEN 1 AND 3".toList
#guard fmt .pretty "SELECT 2 BETWEEN 1 AND 3" == some "SELECT 2 BETWEEN 1 AND 3".toList
#guard fmt .default "SELECT 'a' IN ('a', 'b')" == some "SELECT 'a' IN ('a','b')".toList
#guard fmt .pretty "SELECT 'a' IN ('a', 'b')" == some "SELECT 'a' IN ('a','b')".toList
#guard fmt .default "SELECT 'a' IN ('a','b')" == some "SELECT 'a' IN ('a','b')".toList
#guard fmt .pretty "SELECT 'a' IN ('a','b')" == some "SELECT 'a' IN ('a','b')".toList
#guard fmt .default "SELECT 'abc' LIKE '%ab%'" == some "SELECT 'abc' LIKE '%ab%'".toList
#guard fmt .pretty "SELECT 'abc' LIKE '%ab%'" == some "SELECT 'abc' LIKE '%ab%'".toList
#guard fmt .default "SELECT ARRAY[1,2]" == some "SELECT ARRAY[1,2]".toList
#guard fmt .pretty "SELECT ARRAY[1,2]" == some "SELECT ARRAY[1,2]".toList
#guard fmt .default "SELECT DECIMAL '3.52'" == some "SELECT DECIMAL '3.52'".toList
#guard fmt .pretty "SELECT DECIMAL '3.52'" == some "SELECT DECIMAL '3.52'".toList
#guard fmt .default "SELECT CAST(3 AS DECIMAL(30,2))" == some "SELECT CAST(3 AS DECIMAL(30,2))".toList
#guard fmt .pretty "SELECT CAST(3 AS DECIMAL(30,2))" == some "SELECT CAST(3 AS DECIMAL(30,2))".toList
#guard fmt .default "SELECT CAST('2021-01-01 07:00:01.000110001' AS TIMESTAMP(9))" == some "SELECT CAST('2021-01-01 07:00:01.000110001' AS TIMESTAMP(9))".toList
#guard fmt .pretty "SELECT CAST('2021-01-01 07:00:01.000110001' AS TIMESTAMP(9))" == some "SELECT CAST('2021-01-01 07:00:01.000110001' AS TIMESTAMP(9))".toList
#guard fmt .default "SELECT CAST(ARRAY[1,2] AS ARRAY(DECIMAL(10,1)))" == some "SELECT CAST(ARRAY[1,2] AS ARRAY(DECIMAL(10,1)))".toList
#guard fmt .pretty "SELECT CAST(ARRAY[1,2] AS ARRAY(DECIMAL(10,1)))" == some "SELECT CAST(ARRAY[1,2] AS ARRAY(DECIMAL(10,1)))".toList
#guard fmt .default "SELECT a FROM t" == some "SELECT \"a\" FROM \"t\"".toList
#guard fmt .pretty "SELECT a FROM t" == some "SELECT \"a\"\n  FROM \"t\"".toList
#guard fmt .default "SELECT \"a\" FROM \"t\"" == some "SELECT \"a\" FROM \"t\"".toList
#guard fmt .pretty "SELECT \"a\" FROM \"t\"" == some "SELECT \"a\"\n  FROM \"t\"".toList
#guard fmt .default "SELECT \"a\"\n  FROM \"t\"" == some "SELECT \"a\" FROM \"t\"".toList
#guard fmt .pretty "SELECT \"a\"\n  FROM \"t\"" == some "SELECT \"a\"\n  FROM \"t\"".toList
#guard fmt .default "SELECT a,b FROM t" == some "SELECT \"a\",\"b\" FROM \"t\"".toList
#guard fmt .pretty "SELECT a,b FROM t" == some "SELECT \"a\",\"b\"\n  FROM \"t\"".toList
#guard fmt .default "SELECT \"a\",\"b\" FROM \"t\"" == some "SELECT \"a\",\"b\" FROM \"t\"".toList
#guard fmt .pretty "SELECT \"a\",\"b\" FROM \"t\"" == some "SELECT \"a\",\"b\"\n  FROM \"t\"".toList
#guard fmt .default "SELECT \"a\",\"b\"\n  FROM \"t\"" == some "SELECT \"a\",\"b\" FROM \"t\"".toList
#guard fmt .pretty "SELECT \"a\",\"b\"\n  FROM \"t\"" == some "SELECT \"a\",\"b\"\n  FROM \"t\"".toList
#guard fmt .default "SELECT a+b FROM t" == some "SELECT \"a\" + \"b\" FROM \"t\"".toList
#guard fmt .pretty "SELECT a+b FROM t" == some "SELECT \"a\" + \"b\"\n  FROM \"t\"".toList
#guard fmt .default "SELECT \"a\" + \"b\" FROM \"t\"" == some "SELECT \"a\" + \"b\" FROM \"t\"".toList
#guard fmt .pretty "SELECT \"a\" + \"b\" FROM \"t\"" == some "SELECT \"a\" + \"b\"\n  FROM \"t\"".toList
#guard fmt .default "SELECT \"a\" + \"b\"\n  FROM \"t\"" == some "SELECT \"a\" + \"b\" FROM \"t\"".toList
#guard fmt .pretty "SELECT \"a\" + \"b\"\n  FROM \"t\"" == some "SELECT \"a\" + \"b\"\n  FROM \"t\"".toList
#guard fmt .default "SELECT a+b FROM t WHERE a > 5" == some "SELECT \"a\" + \"b\" FROM \"t\" WHERE \"a\" > 5".toList
#guard fmt .pretty "SELECT a+b FROM t WHERE a > 5" == some "SELECT \"a\" + \"b\"\n  FROM \"t\"\n WHERE \"a\" > 5".toList
#guard fmt .default "SELECT \"a\" + \"b\" FROM \"t\" WHERE \"a\" > 5" == some "SELECT \"a\" + \"b\" FROM \"t\" WHERE \"a\" > 5".toList
#guard fmt .pretty "SELECT \"a\" + \"b\" FROM \"t\" WHERE \"a\" > 5" == some "SELECT \"a\" + \"b\"\n  FROM \"t\"\n WHERE \"a\" > 5".toList
#guard fmt .default "SELECT \"a\" + \"b\"\n  FROM \"t\"\n WHERE \"a\" > 5" == some "SELECT \"a\" + \"b\" FROM \"t\" WHERE \"a\" > 5".toList
#guard fmt .pretty "SELECT \"a\" + \"b\"\n  FROM \"t\"\n WHERE \"a\" > 5" == some "SELECT \"a\" + \"b\"\n  FROM \"t\"\n WHERE \"a\" > 5".toList
#guard fmt .default "SELECT a+b IS NULL FROM t" == some "SELECT \"a\" + \"b\" IS NULL FROM \"t\"".toList
#guard fmt .pretty "SELECT a+b IS NULL FROM t" == some "SELECT \"a\" + \"b\" IS NULL\n  FROM \"t\"".toList
#guard fmt .default "SELECT \"a\" + \"b\" IS NULL FROM \"t\"" == some "SELECT \"a\" + \"b\" IS NULL FROM \"t\"".toList
#guard fmt .pretty "SELECT \"a\" + \"b\" IS NULL FROM \"t\"" == some "SELECT \"a\" + \"b\" IS NULL\n  FROM \"t\"".toList
#guard fmt .default "SELECT \"a\" + \"b\" IS NULL\n  FROM \"t\"" == some "SELECT \"a\" + \"b\" IS NULL FROM \"t\"".toList
#guard fmt .pretty "SELECT \"a\" + \"b\" IS NULL\n  FROM \"t\"" == some "SELECT \"a\" + \"b\" IS NULL\n  FROM \"t\"".toList
#guard fmt .default "SELECT a AS foo, b bar FROM t" == some "SELECT \"a\" \"foo\",\"b\" \"bar\" FROM \"t\"".toList
#guard fmt .pretty "SELECT a AS foo, b bar FROM t" == some "SELECT \"a\" \"foo\",\"b\" \"bar\"\n  FROM \"t\"".toList
#guard fmt .default "SELECT \"a\" \"foo\",\"b\" \"bar\" FROM \"t\"" == some "SELECT \"a\" \"foo\",\"b\" \"bar\" FROM \"t\"".toList
#guard fmt .pretty "SELECT \"a\" \"foo\",\"b\" \"bar\" FROM \"t\"" == some "SELECT \"a\" \"foo\",\"b\" \"bar\"\n  FROM \"t\"".toList
#guard fmt .default "SELECT \"a\" \"foo\",\"b\" \"bar\"\n  FROM \"t\"" == some "SELECT \"a\" \"foo\",\"b\" \"bar\" FROM \"t\"".toList
#guard fmt .pretty "SELECT \"a\" \"foo\",\"b\" \"bar\"\n  FROM \"t\"" == some "SELECT \"a\" \"foo\",\"b\" \"bar\"\n  FROM \"t\"".toList
#guard fmt .default "SELECT a,b FROM t ORDER BY a DESC NULLS FIRST, b ASC NULLS LAST" == some "SELECT \"a\",\"b\" FROM \"t\" ORDER BY \"a\" DESC NULLS FIRST,\"b\"".toList
#guard fmt .pretty "SELECT a,b FROM t ORDER BY a DESC NULLS FIRST, b ASC NULLS LAST" == some "SELECT \"a\",\"b\"\n  FROM \"t\"\n ORDER BY \"a\" DESC NULLS FIRST,\"b\"".toList
#guard fmt .default "SELECT \"a\",\"b\" FROM \"t\" ORDER BY \"a\" DESC NULLS FIRST,\"b\"" == some "SELECT \"a\",\"b\" FROM \"t\" ORDER BY \"a\" DESC NULLS FIRST,\"b\"".toList
#guard fmt .pretty "SELECT \"a\",\"b\" FROM \"t\" ORDER BY \"a\" DESC NULLS FIRST,\"b\"" == some "SELECT \"a\",\"b\"\n  FROM \"t\"\n ORDER BY \"a\" DESC NULLS FIRST,\"b\"".toList
#guard fmt .default "SELECT \"a\",\"b\"\n  FROM \"t\"\n ORDER BY \"a\" DESC NULLS FIRST,\"b\"" == some "SELECT \"a\",\"b\" FROM \"t\" ORDER BY \"a\" DESC NULLS FIRST,\"b\"".toList
#guard fmt .pretty "SELECT \"a\",\"b\"\n  FROM \"t\"\n ORDER BY \"a\" DESC NULLS FIRST,\"b\"" == some "SELECT \"a\",\"b\"\n  FROM \"t\"\n ORDER BY \"a\" DESC NULLS FIRST,\"b\"".toList
#guard fmt .default "SELECT a,b FROM t\nGROUP BY DISTINCT\n    GROUPING SETS ((a, b), a, ()),\n    ROLLUP (a),\n    CUBE (a,b,c)" == some "SELECT \"a\",\"b\" FROM \"t\" GROUP BY DISTINCT GROUPING SETS ((\"a\",\"b\"),\"a\",()),ROLLUP (\"a\"),CUBE (\"a\",\"b\",\"c\")".toList
#guard fmt .pretty "SELECT a,b FROM t\nGROUP BY DISTINCT\n    GROUPING SETS ((a, b), a, ()),\n    ROLLUP (a),\n    CUBE (a,b,c)" == some "SELECT \"a\",\"b\"\n  FROM \"t\"\n GROUP BY DISTINCT GROUPING SETS ((\"a\",\"b\"),\"a\",()),ROLLUP (\"a\"),CUBE (\"a\",\"b\",\"c\")".toList
#guard fmt .default "SELECT \"a\",\"b\" FROM \"t\" GROUP BY DISTINCT GROUPING SETS ((\"a\",\"b\"),\"a\",()),ROLLUP (\"a\"),CUBE (\"a\",\"b\",\"c\")" == some "SELECT \"a\",\"b\" FROM \"t\" GROUP BY DISTINCT GROUPING SETS ((\"a\",\"b\"),\"a\",()),ROLLUP (\"a\"),CUBE (\"a\",\"b\",\"c\")".toList
#guard fmt .pretty "SELECT \"a\",\"b\" FROM \"t\" GROUP BY DISTINCT GROUPING SETS ((\"a\",\"b\"),\"a\",()),ROLLUP (\"a\"),CUBE (\"a\",\"b\",\"c\")" == some "SELECT \"a\",\"b\"\n  FROM \"t\"\n GROUP BY DISTINCT GROUPING SETS ((\"a\",\"b\"),\"a\",()),ROLLUP (\"a\"),CUBE (\"a\",\"b\",\"c\")".toList
#guard fmt .default "SELECT \"a\",\"b\"\n  FROM \"t\"\n GROUP BY DISTINCT GROUPING SETS ((\"a\",\"b\"),\"a\",()),ROLLUP (\"a\"),CUBE (\"a\",\"b\",\"c\")" == some "SELECT \"a\",\"b\" FROM \"t\" GROUP BY DISTINCT GROUPING SETS ((\"a\",\"b\"),\"a\",()),ROLLUP (\"a\"),CUBE (\"a\",\"b\",\"c\")".toList
#guard fmt .pretty "SELECT \"a\",\"b\"\n  FROM \"t\"\n GROUP BY DISTINCT GROUPING SETS ((\"a\",\"b\"),\"a\",()),ROLLUP (\"a\"),CUBE (\"a\",\"b\",\"c\")" == some "SELECT \"a\",\"b\"\n  FROM \"t\"\n GROUP BY DISTINCT GROUPING SETS ((\"a\",\"b\"),\"a\",()),ROLLUP (\"a\"),CUBE (\"a\",\"b\",\"c\")".toList
#guard fmt .default "SELECT a, b\nFROM (SELECT a, b, c FROM t WHERE c > 5 AND b = 2 ORDER BY a) LIMIT 3" == some "SELECT \"a\",\"b\" FROM (SELECT \"a\",\"b\",\"c\" FROM \"t\" WHERE \"c\" > 5 AND \"b\" = 2 ORDER BY \"a\") LIMIT 3".toList
#guard fmt .pretty "SELECT a, b\nFROM (SELECT a, b, c FROM t WHERE c > 5 AND b = 2 ORDER BY a) LIMIT 3" == some "SELECT \"a\",\"b\"\n  FROM (SELECT \"a\",\"b\",\"c\"\n          FROM \"t\"\n         WHERE \"c\" > 5\n               AND \"b\" = 2\n         ORDER BY \"a\")\n LIMIT 3".toList
#guard fmt .default "SELECT \"a\",\"b\" FROM (SELECT \"a\",\"b\",\"c\" FROM \"t\" WHERE \"c\" > 5 AND \"b\" = 2 ORDER BY \"a\") LIMIT 3" == some "SELECT \"a\",\"b\" FROM (SELECT \"a\",\"b\",\"c\" FROM \"t\" WHERE \"c\" > 5 AND \"b\" = 2 ORDER BY \"a\") LIMIT 3".toList
#guard fmt .pretty "SELECT \"a\",\"b\" FROM (SELECT \"a\",\"b\",\"c\" FROM \"t\" WHERE \"c\" > 5 AND \"b\" = 2 ORDER BY \"a\") LIMIT 3" == some "SELECT \"a\",\"b\"\n  FROM (SELECT \"a\",\"b\",\"c\"\n          FROM \"t\"\n         WHERE \"c\" > 5\n               AND \"b\" = 2\n         ORDER BY \"a\")\n LIMIT 3".toList
#guard fmt .default "SELECT \"a\",\"b\"\n  FROM (SELECT \"a\",\"b\",\"c\"\n          FROM \"t\"\n         WHERE \"c\" > 5\n               AND \"b\" = 2\n         ORDER BY \"a\")\n LIMIT 3" == some "SELECT \"a\",\"b\" FROM (SELECT \"a\",\"b\",\"c\" FROM \"t\" WHERE \"c\" > 5 AND \"b\" = 2 ORDER BY \"a\") LIMIT 3".toList
#guard fmt .pretty "SELECT \"a\",\"b\"\n  FROM (SELECT \"a\",\"b\",\"c\"\n          FROM \"t\"\n         WHERE \"c\" > 5\n               AND \"b\" = 2\n         ORDER BY \"a\")\n LIMIT 3" == some "SELECT \"a\",\"b\"\n  FROM (SELECT \"a\",\"b\",\"c\"\n          FROM \"t\"\n         WHERE \"c\" > 5\n               AND \"b\" = 2\n         ORDER BY \"a\")\n LIMIT 3".toList
#guard fmt .default "SELECT SUM(a) OVER (PARTITION BY date ORDER BY timestamp ROWS BETWEEN 5 PRECEDING AND CURRENT ROW), x, y, z FROM t" == some "SELECT SUM(\"a\") OVER (PARTITION BY \"date\" ORDER BY \"timestamp\" ROWS BETWEEN 5 PRECEDING AND CURRENT ROW),\"x\",\"y\",\"z\" FROM \"t\"".toList
#guard fmt .pretty "SELECT SUM(a) OVER (PARTITION BY date ORDER BY timestamp ROWS BETWEEN 5 PRECEDING AND CURRENT ROW), x, y, z FROM t" == some "SELECT SUM(\"a\")\n           OVER (PARTITION BY \"date\"\n                    ORDER BY \"timestamp\"\n                     ROWS BETWEEN 5 PRECEDING AND CURRENT ROW),\n       \"x\",\"y\",\"z\"\n  FROM \"t\"".toList
#guard fmt .default "SELECT SUM(\"a\") OVER (PARTITION BY \"date\" ORDER BY \"timestamp\" ROWS BETWEEN 5 PRECEDING AND CURRENT ROW),\"x\",\"y\",\"z\" FROM \"t\"" == some "SELECT SUM(\"a\") OVER (PARTITION BY \"date\" ORDER BY \"timestamp\" ROWS BETWEEN 5 PRECEDING AND CURRENT ROW),\"x\",\"y\",\"z\" FROM \"t\"".toList
#guard fmt .pretty "SELECT SUM(\"a\") OVER (PARTITION BY \"date\" ORDER BY \"timestamp\" ROWS BETWEEN 5 PRECEDING AND CURRENT ROW),\"x\",\"y\",\"z\" FROM \"t\"" == some "SELECT SUM(\"a\")\n           OVER (PARTITION BY \"date\"\n                    ORDER BY \"timestamp\"\n                     ROWS BETWEEN 5 PRECEDING AND CURRENT ROW),\n       \"x\",\"y\",\"z\"\n  FROM \"t\"".toList
#guard fmt .default "SELECT SUM(\"a\")\n           OVER (PARTITION BY \"date\"\n                    ORDER BY \"timestamp\"\n                     ROWS BETWEEN 5 PRECEDING AND CURRENT ROW),\n       \"x\",\"y\",\"z\"\n  FROM \"t\"" == some "SELECT SUM(\"a\") OVER (PARTITION BY \"date\" ORDER BY \"timestamp\" ROWS BETWEEN 5 PRECEDING AND CURRENT ROW),\"x\",\"y\",\"z\" FROM \"t\"".toList
#guard fmt .pretty "SELECT SUM(\"a\")\n           OVER (PARTITION BY \"date\"\n                    ORDER BY \"timestamp\"\n                     ROWS BETWEEN 5 PRECEDING AND CURRENT ROW),\n       \"x\",\"y\",\"z\"\n  FROM \"t\"" == some "SELECT SUM(\"a\")\n           OVER (PARTITION BY \"date\"\n                    ORDER BY \"timestamp\"\n                     ROWS BETWEEN 5 PRECEDING AND CURRENT ROW),\n       \"x\",\"y\",\"z\"\n  FROM \"t\"".toList
#guard fmt .default "SELECT a\nFROM (SELECT a,b FROM (SELECT a,b,c FROM t))" == some "SELECT \"a\" FROM (SELECT \"a\",\"b\" FROM (SELECT \"a\",\"b\",\"c\" FROM \"t\"))".toList
#guard fmt .pretty "SELECT a\nFROM (SELECT a,b FROM (SELECT a,b,c FROM t))" == some "SELECT \"a\"\n  FROM (SELECT \"a\",\"b\"\n          FROM (SELECT \"a\",\"b\",\"c\"\n                  FROM \"t\"))".toList
#guard fmt .default "SELECT \"a\" FROM (SELECT \"a\",\"b\" FROM (SELECT \"a\",\"b\",\"c\" FROM \"t\"))" == some "SELECT \"a\" FROM (SELECT \"a\",\"b\" FROM (SELECT \"a\",\"b\",\"c\" FROM \"t\"))".toList
#guard fmt .pretty "SELECT \"a\" FROM (SELECT \"a\",\"b\" FROM (SELECT \"a\",\"b\",\"c\" FROM \"t\"))" == some "SELECT \"a\"\n  FROM (SELECT \"a\",\"b\"\n          FROM (SELECT \"a\",\"b\",\"c\"\n                  FROM \"t\"))".toList
#guard fmt .default "SELECT \"a\"\n  FROM (SELECT \"a\",\"b\"\n          FROM (SELECT \"a\",\"b\",\"c\"\n                  FROM \"t\"))" == some "SELECT \"a\" FROM (SELECT \"a\",\"b\" FROM (SELECT \"a\",\"b\",\"c\" FROM \"t\"))".toList
#guard fmt .pretty "SELECT \"a\"\n  FROM (SELECT \"a\",\"b\"\n          FROM (SELECT \"a\",\"b\",\"c\"\n                  FROM \"t\"))" == some "SELECT \"a\"\n  FROM (SELECT \"a\",\"b\"\n          FROM (SELECT \"a\",\"b\",\"c\"\n                  FROM \"t\"))".toList
#guard fmt .default "WITH foo AS (SELECT a,b FROM t) SELECT foo.a, t.b FROM t INNER JOIN foo ON foo.a = t.b" == some "WITH \"foo\" AS (SELECT \"a\",\"b\" FROM \"t\") SELECT \"foo\".\"a\",\"t\".\"b\" FROM \"t\" INNER JOIN \"foo\" ON \"foo\".\"a\" = \"t\".\"b\"".toList
#guard fmt .pretty "WITH foo AS (SELECT a,b FROM t) SELECT foo.a, t.b FROM t INNER JOIN foo ON foo.a = t.b" == some "  WITH \"foo\" AS (\n       SELECT \"a\",\"b\"\n         FROM \"t\")\nSELECT \"foo\".\"a\",\"t\".\"b\"\n  FROM \"t\"\n       INNER JOIN \"foo\"\n       ON \"foo\".\"a\" = \"t\".\"b\"".toList
#guard fmt .default "WITH \"foo\" AS (SELECT \"a\",\"b\" FROM \"t\") SELECT \"foo\".\"a\",\"t\".\"b\" FROM \"t\" INNER JOIN \"foo\" ON \"foo\".\"a\" = \"t\".\"b\"" == some "WITH \"foo\" AS (SELECT \"a\",\"b\" FROM \"t\") SELECT \"foo\".\"a\",\"t\".\"b\" FROM \"t\" INNER JOIN \"foo\" ON \"foo\".\"a\" = \"t\".\"b\"".toList
#guard fmt .pretty "WITH \"foo\" AS (SELECT \"a\",\"b\" FROM \"t\") SELECT \"foo\".\"a\",\"t\".\"b\" FROM \"t\" INNER JOIN \"foo\" ON \"foo\".\"a\" = \"t\".\"b\"" == some "  WITH \"foo\" AS (\n       SELECT \"a\",\"b\"\n         FROM \"t\")\nSELECT \"foo\".\"a\",\"t\".\"b\"\n  FROM \"t\"\n       INNER JOIN \"foo\"\n       ON \"foo\".\"a\" = \"t\".\"b\"".toList
#guard fmt .default "  WITH \"foo\" AS (\n       SELECT \"a\",\"b\"\n         FROM \"t\")\nSELECT \"foo\".\"a\",\"t\".\"b\"\n  FROM \"t\"\n       INNER JOIN \"foo\"\n       ON \"foo\".\"a\" = \"t\".\"b\"" == some "WITH \"foo\" AS (SELECT \"a\",\"b\" FROM \"t\") SELECT \"foo\".\"a\",\"t\".\"b\" FROM \"t\" INNER JOIN \"foo\" ON \"foo\".\"a\" = \"t\".\"b\"".toList
#guard fmt .pretty "  WITH \"foo\" AS (\n       SELECT \"a\",\"b\"\n         FROM \"t\")\nSELECT \"foo\".\"a\",\"t\".\"b\"\n  FROM \"t\"\n       INNER JOIN \"foo\"\n       ON \"foo\".\"a\" = \"t\".\"b\"" == some "  WITH \"foo\" AS (\n       SELECT \"a\",\"b\"\n         FROM \"t\")\nSELECT \"foo\".\"a\",\"t\".\"b\"\n  FROM \"t\"\n       INNER JOIN \"foo\"\n       ON \"foo\".\"a\" = \"t\".\"b\"".toList
#guard fmt .default "SELECT SUM(a ORDER BY b, c ASC NULLS FIRST)\n           FILTER (WHERE a IS NULL)\n           OVER (RANGE BETWEEN 5 PRECEDING AND CURRENT ROW)\nFROM t" == some "SELECT SUM(\"a\" ORDER BY \"b\",\"c\" NULLS FIRST) FILTER (WHERE \"a\" IS NULL) OVER (RANGE BETWEEN 5 PRECEDING AND CURRENT ROW) FROM \"t\"".toList
#guard fmt .pretty "SELECT SUM(a ORDER BY b, c ASC NULLS FIRST)\n           FILTER (WHERE a IS NULL)\n           OVER (RANGE BETWEEN 5 PRECEDING AND CURRENT ROW)\nFROM t" == some "SELECT SUM(\"a\" ORDER BY \"b\",\"c\" NULLS FIRST)\n           FILTER (WHERE \"a\" IS NULL)\n             OVER (RANGE BETWEEN 5 PRECEDING AND CURRENT ROW)\n  FROM \"t\"".toList
#guard fmt .default "SELECT SUM(\"a\" ORDER BY \"b\",\"c\" NULLS FIRST) FILTER (WHERE \"a\" IS NULL) OVER (RANGE BETWEEN 5 PRECEDING AND CURRENT ROW) FROM \"t\"" == some "SELECT SUM(\"a\" ORDER BY \"b\",\"c\" NULLS FIRST) FILTER (WHERE \"a\" IS NULL) OVER (RANGE BETWEEN 5 PRECEDING AND CURRENT ROW) FROM \"t\"".toList
#guard fmt .pretty "SELECT SUM(\"a\" ORDER BY \"b\",\"c\" NULLS FIRST) FILTER (WHERE \"a\" IS NULL) OVER (RANGE BETWEEN 5 PRECEDING AND CURRENT ROW) FROM \"t\"" == some "SELECT SUM(\"a\" ORDER BY \"b\",\"c\" NULLS FIRST)\n           FILTER (WHERE \"a\" IS NULL)\n             OVER (RANGE BETWEEN 5 PRECEDING AND CURRENT ROW)\n  FROM \"t\"".toList
#guard fmt .default "SELECT SUM(\"a\" ORDER BY \"b\",\"c\" NULLS FIRST)\n           FILTER (WHERE \"a\" IS NULL)\n             OVER (RANGE BETWEEN 5 PRECEDING AND CURRENT ROW)\n  FROM \"t\"" == some "SELECT SUM(\"a\" ORDER BY \"b\",\"c\" NULLS FIRST) FILTER (WHERE \"a\" IS NULL) OVER (RANGE BETWEEN 5 PRECEDING AND CURRENT ROW) FROM \"t\"".toList
#guard fmt .pretty "SELECT SUM(\"a\" ORDER BY \"b\",\"c\" NULLS FIRST)\n           FILTER (WHERE \"a\" IS NULL)\n             OVER (RANGE BETWEEN 5 PRECEDING AND CURRENT ROW)\n  FROM \"t\"" == some "SELECT SUM(\"a\" ORDER BY \"b\",\"c\" NULLS FIRST)\n           FILTER (WHERE \"a\" IS NULL)\n             OVER (RANGE BETWEEN 5 PRECEDING AND CURRENT ROW)\n  FROM \"t\"".toList
#guard fmt .default "WITH foo AS (\n    SELECT a,b FROM t1\n        INNER JOIN (SELECT * FROM t2)\n            ON t1.x <> t2.y\n                AND t1.a IS NOT NULL\n                OR t1.b IS NULL)\nSELECT SUM(foo.a ORDER BY foo.b ASC) FILTER (WHERE foo.a > 5) IGNORE NULLS OVER (PARTITION BY date) AS \"sum\",\n       COUNT(*) AS \"count\"" == some "WITH \"foo\" AS (SELECT \"a\",\"b\" FROM \"t1\" INNER JOIN (SELECT * FROM \"t2\") ON \"t1\".\"x\" <> \"t2\".\"y\" AND \"t1\".\"a\" IS NOT NULL OR \"t1\".\"b\" IS NULL) SELECT SUM(\"foo\".\"a\" ORDER BY \"foo\".\"b\") FILTER (WHERE \"foo\".\"a\" > 5) IGNORE NULLS OVER (PARTITION BY \"date\" RANGE BETWEEN UNBOUNDED PRECEDING AND CURRENT ROW) \"sum\",COUNT(*) \"count\"".toList
#guard fmt .pretty "WITH foo AS (\n    SELECT a,b FROM t1\n        INNER JOIN (SELECT * FROM t2)\n            ON t1.x <> t2.y\n                AND t1.a IS NOT NULL\n                OR t1.b IS NULL)\nSELECT SUM(foo.a ORDER BY foo.b ASC) FILTER (WHERE foo.a > 5) IGNORE NULLS OVER (PARTITION BY date) AS \"sum\",\n       COUNT(*) AS \"count\"" == some "  WITH \"foo\" AS (\n       SELECT \"a\",\"b\"\n         FROM \"t1\"\n              INNER JOIN (\n              SELECT *\n                FROM \"t2\")\n              ON \"t1\".\"x\" <> \"t2\".\"y\"\n                  AND \"t1\".\"a\" IS NOT NULL\n                  OR \"t1\".\"b\" IS NULL)\nSELECT SUM(\"foo\".\"a\" ORDER BY \"foo\".\"b\")\n           FILTER (WHERE \"foo\".\"a\" > 5)\n           IGNORE NULLS\n             OVER (PARTITION BY \"date\"\n                      RANGE BETWEEN UNBOUNDED PRECEDING AND CURRENT ROW) \"sum\",\n       COUNT(*) \"count\"".toList
#guard fmt .default "WITH \"foo\" AS (SELECT \"a\",\"b\" FROM \"t1\" INNER JOIN (SELECT * FROM \"t2\") ON \"t1\".\"x\" <> \"t2\".\"y\" AND \"t1\".\"a\" IS NOT NULL OR \"t1\".\"b\" IS NULL) SELECT SUM(\"foo\".\"a\" ORDER BY \"foo\".\"b\") FILTER (WHERE \"foo\".\"a\" > 5) IGNORE NULLS OVER (PARTITION BY \"date\" RANGE BETWEEN UNBOUNDED PRECEDING AND CURRENT ROW) \"sum\",COUNT(*) \"count\"" == some "WITH \"foo\" AS (SELECT \"a\",\"b\" FROM \"t1\" INNER JOIN (SELECT * FROM \"t2\") ON \"t1\".\"x\" <> \"t2\".\"y\" AND \"t1\".\"a\" IS NOT NULL OR \"t1\".\"b\" IS NULL) SELECT SUM(\"foo\".\"a\" ORDER BY \"foo\".\"b\") FILTER (WHERE \"foo\".\"a\" > 5) IGNORE NULLS OVER (PARTITION BY \"date\" RANGE BETWEEN UNBOUNDED PRECEDING AND CURRENT ROW) \"sum\",COUNT(*) \"count\"".toList
#guard fmt .pretty "WITH \"foo\" AS (SELECT \"a\",\"b\" FROM \"t1\" INNER JOIN (SELECT * FROM \"t2\") ON \"t1\".\"x\" <> \"t2\".\"y\" AND \"t1\".\"a\" IS NOT NULL OR \"t1\".\"b\" IS NULL) SELECT SUM(\"foo\".\"a\" ORDER BY \"foo\".\"b\") FILTER (WHERE \"foo\".\"a\" > 5) IGNORE NULLS OVER (PARTITION BY \"date\" RANGE BETWEEN UNBOUNDED PRECEDING AND CURRENT ROW) \"sum\",COUNT(*) \"count\"" == some "  WITH \"foo\" AS (\n       SELECT \"a\",\"b\"\n         FROM \"t1\"\n              INNER JOIN (\n              SELECT *\n                FROM \"t2\")\n              ON \"t1\".\"x\" <> \"t2\".\"y\"\n                  AND \"t1\".\"a\" IS NOT NULL\n                  OR \"t1\".\"b\" IS NULL)\nSELECT SUM(\"foo\".\"a\" ORDER BY \"foo\".\"b\")\n           FILTER (WHERE \"foo\".\"a\" > 5)\n           IGNORE NULLS\n             OVER (PARTITION BY \"date\"\n                      RANGE BETWEEN UNBOUNDED PRECEDING AND CURRENT ROW) \"sum\",\n       COUNT(*) \"count\"".toList
#guard fmt .default "  WITH \"foo\" AS (\n       SELECT \"a\",\"b\"\n         FROM \"t1\"\n              INNER JOIN (\n              SELECT *\n                FROM \"t2\")\n              ON \"t1\".\"x\" <> \"t2\".\"y\"\n                  AND \"t1\".\"a\" IS NOT NULL\n                  OR \"t1\".\"b\" IS NULL)\nSELECT SUM(\"foo\".\"a\" ORDER BY \"foo\".\"b\")\n           FILTER (WHERE \"foo\".\"a\" > 5)\n           IGNORE NULLS\n             OVER (PARTITION BY \"date\"\n                      RANGE BETWEEN UNBOUNDED PRECEDING AND CURRENT ROW) \"sum\",\n       COUNT(*) \"count\"" == some "WITH \"foo\" AS (SELECT \"a\",\"b\" FROM \"t1\" INNER JOIN (SELECT * FROM \"t2\") ON \"t1\".\"x\" <> \"t2\".\"y\" AND \"t1\".\"a\" IS NOT NULL OR \"t1\".\"b\" IS NULL) SELECT SUM(\"foo\".\"a\" ORDER BY \"foo\".\"b\") FILTER (WHERE \"foo\".\"a\" > 5) IGNORE NULLS OVER (PARTITION BY \"date\" RANGE BETWEEN UNBOUNDED PRECEDING AND CURRENT ROW) \"sum\",COUNT(*) \"count\"".toList
#guard fmt .pretty "  WITH \"foo\" AS (\n       SELECT \"a\",\"b\"\n         FROM \"t1\"\n              INNER JOIN (\n              SELECT *\n                FROM \"t2\")\n              ON \"t1\".\"x\" <> \"t2\".\"y\"\n                  AND \"t1\".\"a\" IS NOT NULL\n                  OR \"t1\".\"b\" IS NULL)\nSELECT SUM(\"foo\".\"a\" ORDER BY \"foo\".\"b\")\n           FILTER (WHERE \"foo\".\"a\" > 5)\n           IGNORE NULLS\n             OVER (PARTITION BY \"date\"\n                      RANGE BETWEEN UNBOUNDED PRECEDING AND CURRENT ROW) \"sum\",\n       COUNT(*) \"count\"" == some "  WITH \"foo\" AS (\n       SELECT \"a\",\"b\"\n         FROM \"t1\"\n              INNER JOIN (\n              SELECT *\n                FROM \"t2\")\n              ON \"t1\".\"x\" <> \"t2\".\"y\"\n                  AND \"t1\".\"a\" IS NOT NULL\n                  OR \"t1\".\"b\" IS NULL)\nSELECT SUM(\"foo\".\"a\" ORDER BY \"foo\".\"b\")\n           FILTER (WHERE \"foo\".\"a\" > 5)\n           IGNORE NULLS\n             OVER (PARTITION BY \"date\"\n                      RANGE BETWEEN UNBOUNDED PRECEDING AND CURRENT ROW) \"sum\",\n       COUNT(*) \"count\"".toList

end Treeno.Conformance
