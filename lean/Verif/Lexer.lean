import Verif.Py
/-!
# The lexer rules of `treeno/grammar/SqlBase.g4`

ANTLR lexers take, at every position, the longest match of any rule, and among the rules with a
match of that length the first one.  `lexOne` computes that choice by the first character.
`Spec/LexSpec.lean` states the rules and `Props/LexerProps.lean` proves that `lexOne` is that choice.
-/
namespace Treeno

/-- Token classes.  All keyword rules are one class (the text tells them apart), likewise all
operator and punctuation rules. -/
inductive Kind
  | kw | sym | str | ustr | bin | int | dec | dbl | ident | digitIdent | quoted | backquoted
  | comment | ws | unrec
  deriving DecidableEq, Repr

/-- A token: its class and its text. -/
structure Tok where
  kind : Kind
  text : Str
  deriving DecidableEq, Repr

/-- Keyword rules with an upper- and a lower-case spelling, SqlBase.g4 858-1128. -/
def keywords : List Str :=
  [c% "ABSENT", c% "ADD", c% "ADMIN", c% "AFTER", c% "ALL", c% "ALTER", c% "ANALYZE", c% "AND",
   c% "ANY", c% "ARRAY", c% "AS", c% "ASC", c% "AT", c% "AUTHORIZATION", c% "BERNOULLI",
   c% "BETWEEN", c% "BOTH", c% "BY", c% "CALL", c% "CASCADE", c% "CASE", c% "CAST", c% "CATALOGS",
   c% "COLUMN", c% "COLUMNS", c% "COMMENT", c% "COMMIT", c% "COMMITTED", c% "CONDITIONAL",
   c% "CONSTRAINT", c% "COUNT", c% "COPARTITION", c% "CREATE", c% "CROSS", c% "CUBE",
   c% "CURRENT", c% "CURRENT_CATALOG", c% "CURRENT_DATE", c% "CURRENT_PATH", c% "CURRENT_ROLE",
   c% "CURRENT_SCHEMA", c% "CURRENT_TIME", c% "CURRENT_TIMESTAMP", c% "CURRENT_USER", c% "DATA",
   c% "DATE", c% "DAY", c% "DEALLOCATE", c% "DEFAULT", c% "DEFINER", c% "DELETE", c% "DENY",
   c% "DESC", c% "DESCRIBE", c% "DESCRIPTOR", c% "DEFINE", c% "DISTINCT", c% "DISTRIBUTED",
   c% "DOUBLE", c% "DROP", c% "ELSE", c% "EMPTY", c% "ENCODING", c% "END", c% "ERROR",
   c% "ESCAPE", c% "EXCEPT", c% "EXCLUDING", c% "EXECUTE", c% "EXISTS", c% "EXPLAIN",
   c% "EXTRACT", c% "FALSE", c% "FETCH", c% "FILTER", c% "FINAL", c% "FIRST", c% "FOLLOWING",
   c% "FOR", c% "FORMAT", c% "FROM", c% "FULL", c% "FUNCTIONS", c% "GRANT", c% "GRANTED",
   c% "GRANTS", c% "GRAPHVIZ", c% "GROUP", c% "GROUPING", c% "GROUPS", c% "HAVING", c% "HOUR",
   c% "IF", c% "IGNORE", c% "IN", c% "INCLUDING", c% "INITIAL", c% "INNER", c% "INPUT",
   c% "INSERT", c% "INTERSECT", c% "INTERVAL", c% "INTO", c% "INVOKER", c% "IO", c% "IS",
   c% "ISOLATION", c% "JOIN", c% "JSON", c% "JSON_ARRAY", c% "JSON_EXISTS", c% "JSON_OBJECT",
   c% "JSON_QUERY", c% "JSON_VALUE", c% "KEEP", c% "KEY", c% "KEYS", c% "LAST", c% "LATERAL",
   c% "LEADING", c% "LEFT", c% "LEVEL", c% "LIKE", c% "LIMIT", c% "LISTAGG", c% "LOCAL",
   c% "LOCALTIME", c% "LOCALTIMESTAMP", c% "LOGICAL", c% "MAP", c% "MATCH", c% "MATCHED",
   c% "MATCHES", c% "MATCH_RECOGNIZE", c% "MATERIALIZED", c% "MEASURES", c% "MERGE", c% "MINUTE",
   c% "MONTH", c% "NATURAL", c% "NEXT", c% "NO", c% "NONE", c% "NORMALIZE", c% "NOT", c% "NULL",
   c% "NULLIF", c% "NULLS", c% "OBJECT", c% "OFFSET", c% "OMIT", c% "OF", c% "ON", c% "ONE",
   c% "ONLY", c% "OPTION", c% "OR", c% "ORDER", c% "ORDINALITY", c% "OUTER", c% "OUTPUT",
   c% "OVER", c% "OVERFLOW", c% "PARTITION", c% "PARTITIONS", c% "PASSING", c% "PAST", c% "PATH",
   c% "PATTERN", c% "PER", c% "PERMUTE", c% "POSITION", c% "PRECEDING", c% "PRECISION",
   c% "PREPARE", c% "PRIVILEGES", c% "PROPERTIES", c% "PRUNE", c% "QUOTES", c% "RANGE", c% "READ",
   c% "RECURSIVE", c% "REFRESH", c% "RENAME", c% "REPEATABLE", c% "REPLACE", c% "RESET",
   c% "RESPECT", c% "RESTRICT", c% "RETURNING", c% "REVOKE", c% "RIGHT", c% "ROLE", c% "ROLES",
   c% "ROLLBACK", c% "ROLLUP", c% "ROW", c% "ROWS", c% "RUNNING", c% "SCALAR", c% "SCHEMA",
   c% "SCHEMAS", c% "SECOND", c% "SECURITY", c% "SEEK", c% "SELECT", c% "SERIALIZABLE",
   c% "SESSION", c% "SET", c% "SETS", c% "SHOW", c% "SOME", c% "START", c% "STATS", c% "SUBSET",
   c% "SUBSTRING", c% "SYSTEM", c% "TABLE", c% "TABLES", c% "TABLESAMPLE", c% "TEXT", c% "THEN",
   c% "TIES", c% "TIME", c% "TIMESTAMP", c% "TO", c% "TRAILING", c% "TRANSACTION", c% "TRIM",
   c% "TRUE", c% "TRUNCATE", c% "TRY_CAST", c% "TYPE", c% "UESCAPE", c% "UNBOUNDED",
   c% "UNCOMMITTED", c% "UNCONDITIONAL", c% "UNION", c% "UNIQUE", c% "UNKNOWN", c% "UNMATCHED",
   c% "UNNEST", c% "UPDATE", c% "USE", c% "USER", c% "USING", c% "VALIDATE", c% "VALUE",
   c% "VALUES", c% "VERBOSE", c% "VERSION", c% "VIEW", c% "WHEN", c% "WHERE", c% "WINDOW",
   c% "WITH", c% "WITHIN", c% "WITHOUT", c% "WORK", c% "WRAPPER", c% "WRITE", c% "YEAR", c% "ZONE"]

/-- Keyword rules with an upper-case spelling only, SqlBase.g4 858-1128, and the literal `'SKIP'`
used in parser rules (SqlBase.g4 379-384). -/
def upperKeywords : List Str :=
  [c% "NFC", c% "NFD", c% "NFKC", c% "NFKD", c% "STRING", c% "UTF16", c% "UTF32", c% "UTF8",
   c% "SKIP"]

/-- The rule `nonReserved`, SqlBase.g4 828-856 (by keyword text). -/
def nonReserved : List Str :=
  [c% "ABSENT", c% "ADD", c% "ADMIN", c% "AFTER", c% "ALL", c% "ANALYZE", c% "ANY", c% "ARRAY",
   c% "ASC", c% "AT", c% "AUTHORIZATION", c% "BERNOULLI", c% "BOTH", c% "CALL", c% "CASCADE",
   c% "CATALOGS", c% "COLUMN", c% "COLUMNS", c% "COMMENT", c% "COMMIT", c% "COMMITTED",
   c% "CONDITIONAL", c% "COPARTITION", c% "COUNT", c% "CURRENT", c% "DATA", c% "DATE", c% "DAY",
   c% "DEFAULT", c% "DEFINE", c% "DEFINER", c% "DESC", c% "DESCRIPTOR", c% "DISTRIBUTED",
   c% "DOUBLE", c% "EMPTY", c% "ENCODING", c% "ERROR", c% "EXCLUDING", c% "EXPLAIN", c% "FETCH",
   c% "FILTER", c% "FINAL", c% "FIRST", c% "FOLLOWING", c% "FORMAT", c% "FUNCTIONS", c% "GRANT",
   c% "DENY", c% "GRANTED", c% "GRANTS", c% "GRAPHVIZ", c% "GROUPS", c% "HOUR", c% "IF",
   c% "IGNORE", c% "INCLUDING", c% "INITIAL", c% "INPUT", c% "INTERVAL", c% "INVOKER", c% "IO",
   c% "ISOLATION", c% "JSON", c% "KEEP", c% "KEY", c% "KEYS", c% "LAST", c% "LATERAL",
   c% "LEADING", c% "LEVEL", c% "LIMIT", c% "LOCAL", c% "LOGICAL", c% "MAP", c% "MATCH",
   c% "MATCHED", c% "MATCHES", c% "MATCH_RECOGNIZE", c% "MATERIALIZED", c% "MEASURES", c% "MERGE",
   c% "MINUTE", c% "MONTH", c% "NEXT", c% "NFC", c% "NFD", c% "NFKC", c% "NFKD", c% "NO",
   c% "NONE", c% "NULLIF", c% "NULLS", c% "OBJECT", c% "OF", c% "OFFSET", c% "OMIT", c% "ONE",
   c% "ONLY", c% "OPTION", c% "ORDINALITY", c% "OUTPUT", c% "OVER", c% "OVERFLOW", c% "PARTITION",
   c% "PARTITIONS", c% "PASSING", c% "PAST", c% "PATH", c% "PATTERN", c% "PER", c% "PERMUTE",
   c% "POSITION", c% "PRECEDING", c% "PRECISION", c% "PRIVILEGES", c% "PROPERTIES", c% "PRUNE",
   c% "QUOTES", c% "RANGE", c% "READ", c% "REFRESH", c% "RENAME", c% "REPEATABLE", c% "REPLACE",
   c% "RESET", c% "RESPECT", c% "RESTRICT", c% "RETURNING", c% "REVOKE", c% "ROLE", c% "ROLES",
   c% "ROLLBACK", c% "ROW", c% "ROWS", c% "RUNNING", c% "SCALAR", c% "SCHEMA", c% "SCHEMAS",
   c% "SECOND", c% "SECURITY", c% "SEEK", c% "SERIALIZABLE", c% "SESSION", c% "SET", c% "SETS",
   c% "SHOW", c% "SOME", c% "START", c% "STATS", c% "SUBSET", c% "SUBSTRING", c% "SYSTEM",
   c% "TABLES", c% "TABLESAMPLE", c% "TEXT", c% "STRING", c% "TIES", c% "TIME", c% "TIMESTAMP",
   c% "TO", c% "TRAILING", c% "TRANSACTION", c% "TRUNCATE", c% "TRY_CAST", c% "TYPE",
   c% "UNBOUNDED", c% "UNCOMMITTED", c% "UNCONDITIONAL", c% "UNIQUE", c% "UNKNOWN",
   c% "UNMATCHED", c% "UPDATE", c% "USE", c% "USER", c% "UTF16", c% "UTF32", c% "UTF8",
   c% "VALIDATE", c% "VALUE", c% "VERBOSE", c% "VERSION", c% "VIEW", c% "WINDOW", c% "WITHIN",
   c% "WITHOUT", c% "WORK", c% "WRAPPER", c% "WRITE", c% "YEAR", c% "ZONE"]

/-- `c.lower()` on ASCII. -/
def lowerC (c : Char) : Char :=
  if 65 ≤ c.toNat ∧ c.toNat ≤ 90 then Char.ofNat (c.toNat + 32) else c

def lower (s : Str) : Str := s.map lowerC

/-- A word is one of the spellings of a keyword rule. -/
def isKeyword (w : Str) : Bool :=
  keywords.contains w || (keywords.map lower).contains w || upperKeywords.contains w

/-- `LETTER`, SqlBase.g4 1198-1200. -/
def isLetter (c : Char) : Bool :=
  (65 ≤ c.toNat && c.toNat ≤ 90) || (97 ≤ c.toNat && c.toNat ≤ 122)

/-- First character of `IDENTIFIER`, SqlBase.g4 1174-1176. -/
def isIdStart (c : Char) : Bool := isLetter c || c == '_'

/-- Later characters of `IDENTIFIER`, SqlBase.g4 1174-1176. -/
def isIdChar (c : Char) : Bool := isLetter c || isDigit c || c == '_'

/-- `WS`, SqlBase.g4 1210-1212. -/
def isWs (c : Char) : Bool := c == ' ' || c == '\r' || c == '\n' || c == '\t'

/-- The longest continuation after an opening quote `q` of `(~q | qq)* q`
(`STRING`, `UNICODE_STRING`, `QUOTED_IDENTIFIER`, `BACKQUOTED_IDENTIFIER`, SqlBase.g4 1145-1188):
the matched text (with the closing quote) and the rest. -/
def quotedBody (q : Char) : Str → Option (Str × Str)
  | [] => none
  | [c] => if c = q then some ([q], []) else none
  | c :: d :: cs =>
    if c = q then
      if d = q then
        match quotedBody q cs with
        | some (b, r) => some (q :: q :: b, r)
        | none => some ([q], d :: cs)
      else some ([q], d :: cs)
    else (quotedBody q (d :: cs)).map fun p => (c :: p.1, p.2)

/-- `(~')* '` after `X'`: `BINARY_LITERAL`, SqlBase.g4 1156-1158. -/
def binaryBody : Str → Option (Str × Str)
  | [] => none
  | c :: cs => if c = '\'' then some (['\''], cs) else (binaryBody cs).map fun p => (c :: p.1, p.2)

/-- `.*? '*/'` after `/*`: `BRACKETED_COMMENT`, SqlBase.g4 1206-1208. -/
def commentBody : Str → Option (Str × Str)
  | [] => none
  | [_] => none
  | c :: d :: cs =>
    if c = '*' ∧ d = '/' then some (['*', '/'], cs)
    else (commentBody (d :: cs)).map fun p => (c :: p.1, p.2)

/-- `~[\r\n]* '\r'? '\n'?` after `--`: `SIMPLE_COMMENT`, SqlBase.g4 1202-1204. -/
def lineComment (s : Str) : Str × Str :=
  let body := s.takeWhile fun c => c != '\r' && c != '\n'
  match s.dropWhile fun c => c != '\r' && c != '\n' with
  | '\r' :: '\n' :: r => (body ++ c% "\r\n", r)
  | '\r' :: r => (body ++ c% "\r", r)
  | '\n' :: r => (body ++ c% "\n", r)
  | r => (body, r)

/-- `[+-]?` -/
def optSign : Str → Str × Str
  | '+' :: r => (c% "+", r)
  | '-' :: r => (c% "-", r)
  | r => ([], r)

/-- `EXPONENT`, SqlBase.g4 1190-1192. -/
def exponent : Str → Option (Str × Str)
  | 'E' :: s =>
    if ((optSign s).2.takeWhile isDigit).isEmpty then none
    else some ('E' :: (optSign s).1 ++ (optSign s).2.takeWhile isDigit, (optSign s).2.dropWhile isDigit)
  | _ => none

/-- `DIGIT+ ('.' DIGIT*)?`: class, text, rest. -/
def mantissa (s : Str) : Kind × Str × Str :=
  match s.dropWhile isDigit with
  | '.' :: r => (.dec, s.takeWhile isDigit ++ '.' :: r.takeWhile isDigit, r.dropWhile isDigit)
  | r => (.int, s.takeWhile isDigit, r)

/-- The longest of `INTEGER_VALUE`, `DECIMAL_VALUE`, `DOUBLE_VALUE`, SqlBase.g4 1160-1172. -/
def lexNum (s : Str) : Tok × Str :=
  match exponent (mantissa s).2.2 with
  | some (e, r) => (⟨.dbl, (mantissa s).2.1 ++ e⟩, r)
  | none => (⟨(mantissa s).1, (mantissa s).2.1⟩, (mantissa s).2.2)

/-- Rules starting with a digit: the numbers and `DIGIT_IDENTIFIER`, SqlBase.g4 1160-1180.
`s` starts with a digit. -/
def lexNumber (s : Str) : Tok × Str :=
  if (lexNum s).1.text.length < (s.takeWhile isIdChar).length then
    (⟨.digitIdent, s.takeWhile isIdChar⟩, s.dropWhile isIdChar)
  else lexNum s

/-- Keywords and `IDENTIFIER`. -/
def wordTok (s : Str) : Tok × Str :=
  (⟨if isKeyword (s.takeWhile isIdChar) then .kw else .ident, s.takeWhile isIdChar⟩,
    s.dropWhile isIdChar)

/-- Rules starting with a letter or underscore: keywords, `IDENTIFIER`, `UNICODE_STRING`,
`BINARY_LITERAL`. -/
def lexWord (s : Str) : Tok × Str :=
  match s with
  | 'U' :: '&' :: '\'' :: r => match quotedBody '\'' r with
    | some (b, r') => (⟨.ustr, 'U' :: '&' :: '\'' :: b⟩, r')
    | none => wordTok s
  | 'X' :: '\'' :: r => match binaryBody r with
    | some (b, r') => (⟨.bin, 'X' :: '\'' :: b⟩, r')
    | none => wordTok s
  | _ => wordTok s

/-- Rules starting with a period: `DECIMAL_VALUE`, `DOUBLE_VALUE`, `'.'`. -/
def lexDot (r : Str) : Tok × Str :=
  let ds := r.takeWhile isDigit
  if ds.isEmpty then (⟨.sym, c% "."⟩, r)
  else match exponent (r.dropWhile isDigit) with
    | some (e, r') => (⟨.dbl, '.' :: ds ++ e⟩, r')
    | none => (⟨.dec, '.' :: ds⟩, r.dropWhile isDigit)

/-- A quoted token, or the quote alone (`UNRECOGNIZED`). -/
def lexQuoted (k : Kind) (q : Char) (r : Str) : Tok × Str :=
  match quotedBody q r with
  | some (b, r') => (⟨k, q :: b⟩, r')
  | none => (⟨.unrec, [q]⟩, r)

/-- Two-character operators. -/
def twoSyms : List Str :=
  [c% "<>", c% "!=", c% "<=", c% ">=", c% "||", c% "->", c% "=>", c% "{-", c% "-}"]

/-- One-character operators and punctuation. -/
def oneSyms : List Char :=
  ['=', '<', '>', '+', '-', '*', '/', '%', '?', '(', ')', ',', '.', '[', ']', ':', '|', '^', '$',
   '{', '}']

/-- Operators, punctuation and `UNRECOGNIZED`. -/
def lexSym (c : Char) (r : Str) : Tok × Str :=
  match r with
  | d :: r' => if twoSyms.contains [c, d] then (⟨.sym, [c, d]⟩, r')
    else (⟨if oneSyms.contains c then .sym else .unrec, [c]⟩, r)
  | [] => (⟨if oneSyms.contains c then .sym else .unrec, [c]⟩, r)

/-- The token at the start of `c :: s`, and the rest of the text. -/
def lexOne (c : Char) (s : Str) : Tok × Str :=
  if isWs c then (⟨.ws, (c :: s).takeWhile isWs⟩, (c :: s).dropWhile isWs)
  else if isIdStart c then lexWord (c :: s)
  else if isDigit c then lexNumber (c :: s)
  else if c = '.' then lexDot s
  else if c = '\'' then lexQuoted .str '\'' s
  else if c = '"' then lexQuoted .quoted '"' s
  else if c = '`' then lexQuoted .backquoted '`' s
  else if c = '-' then
    match s with
    | '-' :: r => (⟨.comment, '-' :: '-' :: (lineComment r).1⟩, (lineComment r).2)
    | _ => lexSym c s
  else if c = '/' then
    match s with
    | '*' :: r => match commentBody r with
      | some (b, r') => (⟨.comment, '/' :: '*' :: b⟩, r')
      | none => lexSym c s
    | _ => lexSym c s
  else lexSym c s

/-- All tokens; the fuel bounds the number of tokens. -/
def lexGo : Nat → Str → List Tok
  | _, [] => []
  | 0, _ :: _ => []
  | n + 1, c :: s => (lexOne c s).1 :: lexGo n (lexOne c s).2

/-- All tokens of a text, including those on the hidden channel. -/
def lex (s : Str) : List Tok := lexGo s.length s

/-- Hidden channel: comments and white space. -/
def Tok.visible (t : Tok) : Bool :=
  match t.kind with
  | .comment | .ws => false
  | _ => true

/-- The token stream the parser sees (`CommonTokenStream`, treeno/grammar/parse.py 29-32). -/
def toks (s : Str) : List Tok := (lex s).filter Tok.visible

end Treeno
