import Verif.Py
/-!
# The terminals of the grammar

Every spelling of every keyword rule and every operator and punctuation mark of `SqlBase.g4`
(858-1143 and the quoted terminals of the parser rules), listed from the grammar file, and the
character classes of its lexer fragments (1189-1215).
-/
namespace Treeno.Spec
open Treeno

/-- Keyword rules with two spellings. -/
def twoSpellings : List (Str × Str) :=
  [(c% "ABSENT", c% "absent"), (c% "ADD", c% "add"), (c% "ADMIN", c% "admin"),
   (c% "AFTER", c% "after"), (c% "ALL", c% "all"), (c% "ALTER", c% "alter"),
   (c% "ANALYZE", c% "analyze"), (c% "AND", c% "and"), (c% "ANY", c% "any"),
   (c% "ARRAY", c% "array"), (c% "AS", c% "as"), (c% "ASC", c% "asc"), (c% "AT", c% "at"),
   (c% "AUTHORIZATION", c% "authorization"), (c% "BERNOULLI", c% "bernoulli"),
   (c% "BETWEEN", c% "between"), (c% "BOTH", c% "both"), (c% "BY", c% "by"),
   (c% "CALL", c% "call"), (c% "CASCADE", c% "cascade"), (c% "CASE", c% "case"),
   (c% "CAST", c% "cast"), (c% "CATALOGS", c% "catalogs"), (c% "COLUMN", c% "column"),
   (c% "COLUMNS", c% "columns"), (c% "COMMENT", c% "comment"), (c% "COMMIT", c% "commit"),
   (c% "COMMITTED", c% "committed"), (c% "CONDITIONAL", c% "conditional"),
   (c% "CONSTRAINT", c% "constraint"), (c% "COUNT", c% "count"),
   (c% "COPARTITION", c% "copartition"), (c% "CREATE", c% "create"), (c% "CROSS", c% "cross"),
   (c% "CUBE", c% "cube"), (c% "CURRENT", c% "current"),
   (c% "CURRENT_CATALOG", c% "current_catalog"), (c% "CURRENT_DATE", c% "current_date"),
   (c% "CURRENT_PATH", c% "current_path"), (c% "CURRENT_ROLE", c% "current_role"),
   (c% "CURRENT_SCHEMA", c% "current_schema"), (c% "CURRENT_TIME", c% "current_time"),
   (c% "CURRENT_TIMESTAMP", c% "current_timestamp"), (c% "CURRENT_USER", c% "current_user"),
   (c% "DATA", c% "data"), (c% "DATE", c% "date"), (c% "DAY", c% "day"),
   (c% "DEALLOCATE", c% "deallocate"), (c% "DEFAULT", c% "default"),
   (c% "DEFINER", c% "definer"), (c% "DELETE", c% "delete"), (c% "DENY", c% "deny"),
   (c% "DESC", c% "desc"), (c% "DESCRIBE", c% "describe"), (c% "DESCRIPTOR", c% "descriptor"),
   (c% "DEFINE", c% "define"), (c% "DISTINCT", c% "distinct"),
   (c% "DISTRIBUTED", c% "distributed"), (c% "DOUBLE", c% "double"), (c% "DROP", c% "drop"),
   (c% "ELSE", c% "else"), (c% "EMPTY", c% "empty"), (c% "ENCODING", c% "encoding"),
   (c% "END", c% "end"), (c% "ERROR", c% "error"), (c% "ESCAPE", c% "escape"),
   (c% "EXCEPT", c% "except"), (c% "EXCLUDING", c% "excluding"), (c% "EXECUTE", c% "execute"),
   (c% "EXISTS", c% "exists"), (c% "EXPLAIN", c% "explain"), (c% "EXTRACT", c% "extract"),
   (c% "FALSE", c% "false"), (c% "FETCH", c% "fetch"), (c% "FILTER", c% "filter"),
   (c% "FINAL", c% "final"), (c% "FIRST", c% "first"), (c% "FOLLOWING", c% "following"),
   (c% "FOR", c% "for"), (c% "FORMAT", c% "format"), (c% "FROM", c% "from"),
   (c% "FULL", c% "full"), (c% "FUNCTIONS", c% "functions"), (c% "GRANT", c% "grant"),
   (c% "GRANTED", c% "granted"), (c% "GRANTS", c% "grants"), (c% "GRAPHVIZ", c% "graphviz"),
   (c% "GROUP", c% "group"), (c% "GROUPING", c% "grouping"), (c% "GROUPS", c% "groups"),
   (c% "HAVING", c% "having"), (c% "HOUR", c% "hour"), (c% "IF", c% "if"),
   (c% "IGNORE", c% "ignore"), (c% "IN", c% "in"), (c% "INCLUDING", c% "including"),
   (c% "INITIAL", c% "initial"), (c% "INNER", c% "inner"), (c% "INPUT", c% "input"),
   (c% "INSERT", c% "insert"), (c% "INTERSECT", c% "intersect"), (c% "INTERVAL", c% "interval"),
   (c% "INTO", c% "into"), (c% "INVOKER", c% "invoker"), (c% "IO", c% "io"), (c% "IS", c% "is"),
   (c% "ISOLATION", c% "isolation"), (c% "JOIN", c% "join"), (c% "JSON", c% "json"),
   (c% "JSON_ARRAY", c% "json_array"), (c% "JSON_EXISTS", c% "json_exists"),
   (c% "JSON_OBJECT", c% "json_object"), (c% "JSON_QUERY", c% "json_query"),
   (c% "JSON_VALUE", c% "json_value"), (c% "KEEP", c% "keep"), (c% "KEY", c% "key"),
   (c% "KEYS", c% "keys"), (c% "LAST", c% "last"), (c% "LATERAL", c% "lateral"),
   (c% "LEADING", c% "leading"), (c% "LEFT", c% "left"), (c% "LEVEL", c% "level"),
   (c% "LIKE", c% "like"), (c% "LIMIT", c% "limit"), (c% "LISTAGG", c% "listagg"),
   (c% "LOCAL", c% "local"), (c% "LOCALTIME", c% "localtime"),
   (c% "LOCALTIMESTAMP", c% "localtimestamp"), (c% "LOGICAL", c% "logical"),
   (c% "MAP", c% "map"), (c% "MATCH", c% "match"), (c% "MATCHED", c% "matched"),
   (c% "MATCHES", c% "matches"), (c% "MATCH_RECOGNIZE", c% "match_recognize"),
   (c% "MATERIALIZED", c% "materialized"), (c% "MEASURES", c% "measures"),
   (c% "MERGE", c% "merge"), (c% "MINUTE", c% "minute"), (c% "MONTH", c% "month"),
   (c% "NATURAL", c% "natural"), (c% "NEXT", c% "next"), (c% "NO", c% "no"),
   (c% "NONE", c% "none"), (c% "NORMALIZE", c% "normalize"), (c% "NOT", c% "not"),
   (c% "NULL", c% "null"), (c% "NULLIF", c% "nullif"), (c% "NULLS", c% "nulls"),
   (c% "OBJECT", c% "object"), (c% "OFFSET", c% "offset"), (c% "OMIT", c% "omit"),
   (c% "OF", c% "of"), (c% "ON", c% "on"), (c% "ONE", c% "one"), (c% "ONLY", c% "only"),
   (c% "OPTION", c% "option"), (c% "OR", c% "or"), (c% "ORDER", c% "order"),
   (c% "ORDINALITY", c% "ordinality"), (c% "OUTER", c% "outer"), (c% "OUTPUT", c% "output"),
   (c% "OVER", c% "over"), (c% "OVERFLOW", c% "overflow"), (c% "PARTITION", c% "partition"),
   (c% "PARTITIONS", c% "partitions"), (c% "PASSING", c% "passing"), (c% "PAST", c% "past"),
   (c% "PATH", c% "path"), (c% "PATTERN", c% "pattern"), (c% "PER", c% "per"),
   (c% "PERMUTE", c% "permute"), (c% "POSITION", c% "position"),
   (c% "PRECEDING", c% "preceding"), (c% "PRECISION", c% "precision"),
   (c% "PREPARE", c% "prepare"), (c% "PRIVILEGES", c% "privileges"),
   (c% "PROPERTIES", c% "properties"), (c% "PRUNE", c% "prune"), (c% "QUOTES", c% "quotes"),
   (c% "RANGE", c% "range"), (c% "READ", c% "read"), (c% "RECURSIVE", c% "recursive"),
   (c% "REFRESH", c% "refresh"), (c% "RENAME", c% "rename"), (c% "REPEATABLE", c% "repeatable"),
   (c% "REPLACE", c% "replace"), (c% "RESET", c% "reset"), (c% "RESPECT", c% "respect"),
   (c% "RESTRICT", c% "restrict"), (c% "RETURNING", c% "returning"), (c% "REVOKE", c% "revoke"),
   (c% "RIGHT", c% "right"), (c% "ROLE", c% "role"), (c% "ROLES", c% "roles"),
   (c% "ROLLBACK", c% "rollback"), (c% "ROLLUP", c% "rollup"), (c% "ROW", c% "row"),
   (c% "ROWS", c% "rows"), (c% "RUNNING", c% "running"), (c% "SCALAR", c% "scalar"),
   (c% "SCHEMA", c% "schema"), (c% "SCHEMAS", c% "schemas"), (c% "SECOND", c% "second"),
   (c% "SECURITY", c% "security"), (c% "SEEK", c% "seek"), (c% "SELECT", c% "select"),
   (c% "SERIALIZABLE", c% "serializable"), (c% "SESSION", c% "session"), (c% "SET", c% "set"),
   (c% "SETS", c% "sets"), (c% "SHOW", c% "show"), (c% "SOME", c% "some"),
   (c% "START", c% "start"), (c% "STATS", c% "stats"), (c% "SUBSET", c% "subset"),
   (c% "SUBSTRING", c% "substring"), (c% "SYSTEM", c% "system"), (c% "TABLE", c% "table"),
   (c% "TABLES", c% "tables"), (c% "TABLESAMPLE", c% "tablesample"), (c% "TEXT", c% "text"),
   (c% "THEN", c% "then"), (c% "TIES", c% "ties"), (c% "TIME", c% "time"),
   (c% "TIMESTAMP", c% "timestamp"), (c% "TO", c% "to"), (c% "TRAILING", c% "trailing"),
   (c% "TRANSACTION", c% "transaction"), (c% "TRIM", c% "trim"), (c% "TRUE", c% "true"),
   (c% "TRUNCATE", c% "truncate"), (c% "TRY_CAST", c% "try_cast"), (c% "TYPE", c% "type"),
   (c% "UESCAPE", c% "uescape"), (c% "UNBOUNDED", c% "unbounded"),
   (c% "UNCOMMITTED", c% "uncommitted"), (c% "UNCONDITIONAL", c% "unconditional"),
   (c% "UNION", c% "union"), (c% "UNIQUE", c% "unique"), (c% "UNKNOWN", c% "unknown"),
   (c% "UNMATCHED", c% "unmatched"), (c% "UNNEST", c% "unnest"), (c% "UPDATE", c% "update"),
   (c% "USE", c% "use"), (c% "USER", c% "user"), (c% "USING", c% "using"),
   (c% "VALIDATE", c% "validate"), (c% "VALUE", c% "value"), (c% "VALUES", c% "values"),
   (c% "VERBOSE", c% "verbose"), (c% "VERSION", c% "version"), (c% "VIEW", c% "view"),
   (c% "WHEN", c% "when"), (c% "WHERE", c% "where"), (c% "WINDOW", c% "window"),
   (c% "WITH", c% "with"), (c% "WITHIN", c% "within"), (c% "WITHOUT", c% "without"),
   (c% "WORK", c% "work"), (c% "WRAPPER", c% "wrapper"), (c% "WRITE", c% "write"),
   (c% "YEAR", c% "year"), (c% "ZONE", c% "zone")]

/-- Keyword rules, and quoted keywords in parser rules, with one spelling. -/
def oneSpelling : List Str :=
  [c% "NFC", c% "NFD", c% "NFKC", c% "NFKD", c% "STRING", c% "UTF16", c% "UTF32", c% "UTF8",
   c% "SKIP"]

/-- The word is a spelling of a keyword. -/
def KeywordSpelling (w : Str) : Prop :=
  (∃ p ∈ twoSpellings, w = p.1 ∨ w = p.2) ∨ w ∈ oneSpelling

/-- All operators and punctuation marks. -/
def operatorSpellings : List Str :=
  [c% "=", c% "<>", c% "!=", c% "<", c% "<=", c% ">", c% ">=", c% "+", c% "-", c% "*", c% "/",
   c% "%", c% "||", c% "?", c% ".", c% "(", c% ")", c% ",", c% "=>", c% "->", c% "[", c% "]",
   c% ":", c% "|", c% "^", c% "$", c% "{-", c% "-}", c% "{", c% "}"]

/-- `fragment DIGIT` -/
def IsDigit (c : Char) : Prop := '0' ≤ c ∧ c ≤ '9'

/-- `fragment LETTER` -/
def IsLetter (c : Char) : Prop := ('a' ≤ c ∧ c ≤ 'z') ∨ ('A' ≤ c ∧ c ≤ 'Z')

end Treeno.Spec
