import Verif.Ast
import Verif.Printer
/-!
# Printing the tree: the `sql` methods

`Expr.sqlN neg o e` is `e.sql(o)` for `neg = false` and `e.to_string(o, negate=True)` for
`neg = true` (only used on the classes listed in `Not.sql`).
-/
namespace Treeno

/-- `PrintOptions()`, treeno/base.py 55-58: what `str(node)` prints with. -/
def dfltOpts : Opts := {}

/-- The registered name (`FN_NAME`) of a function: the classes of treeno/functions/common.py 74-108,
treeno/functions/conditional.py 13-100, treeno/functions/math.py 11-25, treeno/functions/datetime.py
89-349 and treeno/functions/string.py 26-316. -/
def Fn.name : Fn → Str
  | .concat => c% "CONCAT" | .if_ => c% "IF" | .coalesce => c% "COALESCE" | .nullif => c% "NULLIF"
  | .try_ => c% "TRY" | .power => c% "POWER" | .date => c% "DATE"
  | .lastDayOfMonth => c% "LAST_DAY_OF_MONTH"
  | .fromIso8601Timestamp => c% "FROM_ISO8601_TIMESTAMP"
  | .fromIso8601TimestampNanos => c% "FROM_ISO8601_TIMESTAMP_NANOS"
  | .fromIso8601Date => c% "FROM_ISO8601_DATE" | .atTimezone => c% "AT_TIMEZONE"
  | .withTimezone => c% "WITH_TIMEZONE" | .fromUnixtime => c% "FROM_UNIXTIME"
  | .fromUnixtimeNanos => c% "FROM_UNIXTIME_NANOS" | .now => c% "NOW" | .toIso8601 => c% "TO_ISO8601"
  | .toMilliseconds => c% "TO_MILLISECONDS" | .toUnixtime => c% "TO_UNIXTIME"
  | .dateTrunc => c% "DATE_TRUNC" | .dateAdd => c% "DATE_ADD" | .dateDiff => c% "DATE_DIFF"
  | .parseDuration => c% "PARSE_DURATION" | .humanReadableSeconds => c% "HUMAN_READABLE_SECONDS"
  | .chr => c% "CHR" | .codepoint => c% "CODEPOINT" | .hammingDistance => c% "HAMMING_DISTANCE"
  | .length => c% "LENGTH" | .levenshteinDistance => c% "LEVENSHTEIN_DISTANCE"
  | .lower => c% "LOWER" | .lpad => c% "LPAD" | .ltrim => c% "LTRIM" | .luhnCheck => c% "LUHN_CHECK"
  | .replace => c% "REPLACE" | .reverse => c% "REVERSE" | .rpad => c% "RPAD" | .rtrim => c% "RTRIM"
  | .soundex => c% "SOUNDEX" | .toUtf8 => c% "TO_UTF8" | .fromUtf8 => c% "FROM_UTF8"

/-- The registered name (`FN_NAME`) of an aggregate. -/
def Agg.name : Agg → Str
  | .sum => c% "SUM" | .arbitrary => c% "ARBITRARY" | .arrayAgg => c% "ARRAY_AGG" | .avg => c% "AVG"
  | .boolAnd => c% "BOOL_AND" | .boolOr => c% "BOOL_OR" | .checksum => c% "CHECKSUM"
  | .count => c% "COUNT" | .countIf => c% "COUNT_IF" | .every => c% "EVERY"
  | .geometricMean => c% "GEOMETRIC_MEAN" | .max => c% "MAX" | .maxBy => c% "MAX_BY"
  | .min => c% "MIN" | .minBy => c% "MIN_BY" | .bitwiseAndAgg => c% "BITWISE_AND_AGG"
  | .bitwiseOrAgg => c% "BITWISE_OR_AGG" | .histogram => c% "HISTOGRAM" | .mapAgg => c% "MAP_AGG"
  | .mapUnion => c% "MAP_UNION" | .multimapAgg => c% "MULTIMAP_AGG"
  | .approxDistinct => c% "APPROX_DISTINCT" | .approxMostFrequent => c% "APPROX_MOST_FREQUENT"
  | .approxPercentile => c% "APPROX_PERCENTILE" | .approxSet => c% "APPROX_SET"
  | .merge => c% "MERGE" | .numericHistogram => c% "NUMERIC_HISTOGRAM"
  | .qdigestAgg => c% "QDIGEST_AGG" | .tdigestAgg => c% "TDIGEST_AGG" | .corr => c% "CORR"
  | .covarPop => c% "COVAR_POP" | .covarSamp => c% "COVAR_SAMP" | .kurtosis => c% "KURTOSIS"
  | .regrIntercept => c% "REGR_INTERCEPT" | .regrSlope => c% "REGR_SLOPE"
  | .skewness => c% "SKEWNESS" | .stddev => c% "STDDEV" | .stddevPop => c% "STDDEV_POP"
  | .stddevSamp => c% "STDDEV_SAMP" | .variance => c% "VARIANCE" | .varPop => c% "VAR_POP"
  | .varSamp => c% "VAR_SAMP"

/-- `FN_NAME` of the current-time functions, treeno/functions/datetime.py 56-86. -/
def CurFn.name : CurFn → Str
  | .currentTime => c% "CURRENT_TIME" | .currentTimestamp => c% "CURRENT_TIMESTAMP"
  | .localTime => c% "LOCALTIME" | .localTimestamp => c% "LOCALTIMESTAMP"

/-- `FN_NAME` of the keyword functions. -/
def SessFn.name : SessFn → Str
  | .currentDate => c% "CURRENT_DATE" | .currentUser => c% "CURRENT_USER"
  | .currentCatalog => c% "CURRENT_CATALOG" | .currentSchema => c% "CURRENT_SCHEMA"
  | .currentPath => c% "CURRENT_PATH"

/-- `JoinType.value`, treeno/relation.py 783-788. -/
def JoinType.text : JoinType → Str
  | .inner => c% "INNER" | .left => c% "LEFT" | .right => c% "RIGHT" | .outer => c% "FULL OUTER"
  | .cross => c% "CROSS"

/-- `SampleType.value`, treeno/relation.py 1042-1044 -/
def SampleType.text : SampleType → Str
  | .bernoulli => c% "BERNOULLI" | .system => c% "SYSTEM"

/-- `FrameType.value`, treeno/window.py 30-37 -/
def FrameType.text : FrameType → Str
  | .range => c% "RANGE" | .rows => c% "ROWS" | .groups => c% "GROUPS"

/-- `BoundType.value`, treeno/window.py 40-42 -/
def BoundType.text : BoundType → Str
  | .preceding => c% "PRECEDING" | .following => c% "FOLLOWING"

/-- The keyword of a set operation, treeno/relation.py 366-409. -/
def SetKind.text : SetKind → Str
  | .intersect => c% "INTERSECT" | .except => c% "EXCEPT" | .union => c% "UNION"

/-- `SetQuantifier.name` -/
def quantText (distinct : Bool) : Str := if distinct then c% "DISTINCT" else c% "ALL"

/-- The precedence of a binary operator in `OPERATOR_PRECEDENCE`, treeno/expression.py 1050-1073. -/
def BinOp.prec : BinOp → Option Nat
  | .mul | .div | .mod => some 7
  | .add | .sub => some 6
  | .eq | .ne | .gt | .ge | .lt | .le => some 4
  | .and => some 1
  | .or => some 0
  | .distinct => none

/-- `OPERATOR_PRECEDENCE.get(type(e))`, treeno/expression.py 1050-1073 and
treeno/functions/common.py 108. -/
def Expr.prec : Expr → Option Nat
  | .un _ _ => some 8
  | .bin op _ _ => op.prec
  | .func .concat _ => some 5
  | .isNull _ | .like _ _ _ | .between _ _ _ | .inList _ _ | .inQuery _ _ => some 3
  | .not _ => some 2
  | _ => none

/-- `pemdas_str`, treeno/expression.py 432-466: `s` is the operand printed with the given options,
`d` is `str(operand)`. -/
def pemdas (cur val : Option Nat) (isLeft : Bool) (s d : Except Err Str) : Except Err Str :=
  match cur, val with
  | some c, some v =>
    if c = v then (if isLeft then s else parenS <$> d)
    else if v < c then parenS <$> d
    else s
  | _, _ => s

/-- The classes whose negation `Not.sql` rewrites, treeno/expression.py 582-594. -/
def Expr.negatable : Expr → Bool
  | .bin .distinct _ _ | .bin .eq _ _ | .bin .ne _ _ => true
  | .isNull _ | .like _ _ _ | .inList _ _ | .inQuery _ _ | .between _ _ _ => true
  | _ => false

/-- `spacing`: a new line in pretty mode, a space otherwise (e.g. treeno/expression.py 682). -/
def spacing (o : Opts) : Str := match o.mode with
  | .pretty => c% "\n"
  | .default => c% " "

/-- `" NOT"` when negated. -/
def notText (neg : Bool) : Str := if neg then c% " NOT" else []

/-- `Equal` and `NotEqual` swap when negated, treeno/expression.py 616-636. -/
def BinOp.flip : BinOp → BinOp
  | .eq => .ne
  | .ne => .eq
  | op => op

/-- The format strings of the binary operators, treeno/expression.py 529-727.  `neg` only matters
for `DistinctFrom`. -/
def binText (o : Opts) (neg : Bool) : BinOp → Str → Str → Str
  | .add, l, r => l ++ c% " + " ++ r
  | .sub, l, r => l ++ c% " - " ++ r
  | .mul, l, r => l ++ c% " * " ++ r
  | .div, l, r => l ++ c% " / " ++ r
  | .mod, l, r => l ++ c% " % " ++ r
  | .eq, l, r => l ++ c% " = " ++ r
  | .ne, l, r => l ++ c% " <> " ++ r
  | .gt, l, r => l ++ c% " > " ++ r
  | .ge, l, r => l ++ c% " >= " ++ r
  | .lt, l, r => l ++ c% " < " ++ r
  | .le, l, r => l ++ c% " <= " ++ r
  | .and, l, r => l ++ spacing o ++ c% "AND " ++ r
  | .or, l, r => l ++ spacing o ++ c% "OR " ++ r
  | .distinct, l, r =>
    l ++ (if neg then c% " IS NOT DISTINCT FROM " else c% " IS DISTINCT FROM ") ++ r

/-- `Literal.sql`, treeno/expression.py 215-226. -/
def litText : Option Scalar → Str
  | none => c% "NULL"
  | some (.bool b) => if b then c% "TRUE" else c% "FALSE"
  | some (.int n) => intStr n
  | some (.float r) => r
  | some (.dec d) => d.str
  | some (.str s) => quoteLit s

/-- `x if x else None` for a string. -/
def truthy : Option Str → Option Str
  | some (c :: s) => some (c :: s)
  | _ => none

/-- `Table.sql`, treeno/relation.py 584-585. -/
def TableRef.sql (t : TableRef) : Str := chainIdents [t.catalog, t.schema, some t.name]

/-- `ParametrizedDateTimeFunction.sql`, treeno/functions/datetime.py 46-50. -/
def curTimeText (f : CurFn) (p : Int) : Str :=
  f.name ++ (if p ≠ 3 then parenS (intStr p) else [])

/-- `OverflowFiller.sql` after `ON OVERFLOW `, treeno/functions/aggregate.py 205-217, 253-258. -/
def overflowText (f : Str × Bool) : Str :=
  c% "ON OVERFLOW TRUNCATE " ++ quoteLit f.1 ++
    (if f.2 then c% " WITH COUNT" else c% " WITHOUT COUNT")

/-- `relation_string` on the printed relation, treeno/relation.py 1095-1110. -/
def relStr (o : Opts) (paren newline : Bool) (s : Str) : Str :=
  if paren then parenS ((if o.mode = .pretty ∧ newline = true then c% "\n" else []) ++ s) else s

/-- `isinstance(relation, Query)` -/
def Rel.isQuery : Rel → Bool
  | .query _ => true
  | _ => false

/-- `isinstance(relation, Join)` -/
def Rel.isJoin : Rel → Bool
  | .join _ _ _ _ _ => true
  | _ => false

/-- The OFFSET and LIMIT entries of `_constraint_string_builder`, treeno/relation.py 248-251:
present when the value is truthy. -/
def rowsEntries (offset limit : Option Int) : Entries :=
  (match offset with
    | some n => if n ≠ 0 then [(c% "OFFSET", intStr n)] else []
    | none => []) ++
  (match limit with
    | some n => if n ≠ 0 then [(c% "LIMIT", intStr n)] else []
    | none => [])

/-- `StatementPrinter()`, one `add_entry` per entry, `to_string(opts)`. -/
def printEntries (river : Bool) (es : Entries) (o : Opts) : Except Err Str := do
  .ok (stmtString river (← addEntries [] es) o)

/-- `GroupingSet.sql`, treeno/groupby.py 45-48, on the printed values. -/
def setText (o : Opts) : List Str → Except Err Str
  | [s] => .ok s
  | ss => do
    let s ← joinStmts ss o
    .ok (c% "(" ++ s ++ c% ")")

/-- A piece of text printed when present. -/
def optText (pre : Str) : Option Str → Str
  | some s => pre ++ s
  | none => []

/-- `if x: builder.add_entry(key, text)` -/
def optEntry (k : Str) : Option Str → Entries
  | some s => [(k, s)]
  | none => []

/-- `if xs: builder.add_entry(key, pre + join_stmts(xs, opts))` -/
def listEntry (o : Opts) (k pre : Str) (ss : List Str) : Except Err Entries :=
  if ss.isEmpty then .ok [] else do
    let s ← joinStmts ss o
    .ok [(k, pre ++ s)]

/-- The entry of `parent_window`, treeno/window.py 103-105. -/
def parentEntry (p : Option Str) : Entries := match truthy p with
  | some p => [(p, [])]
  | none => []

/-- `if self.column_aliases: … join_stmts(self.column_aliases, opts)`, treeno/relation.py 748, 754. -/
def colsText (o : Opts) (pre post : Str) (cols : List Str) : Except Err Str :=
  if cols.isEmpty then .ok [] else do
    let j ← joinStmts cols o
    .ok (pre ++ j ++ post)

/-- The FROM text, treeno/relation.py 503-508. -/
def fromText (r : Option Rel) (s : Str) : Str := match r with
  | some r => if r.isQuery then pad (parenS s) 1 else s
  | none => s

/-- `AggregateFunction.get_orderby_string`, treeno/functions/aggregate.py 59-63. -/
def orderByText (o : Opts) (os : List Str) : Except Err Str :=
  if os.isEmpty then .error .assertion else do
    let s ← joinStmts os o
    .ok (c% "ORDER BY " ++ s)

/-- The arguments of an aggregate call, treeno/functions/aggregate.py 65-73. -/
def aggArgs (o : Opts) (args : Str) (os : List Str) : Except Err Str :=
  if os.isEmpty then .ok args else do
    let ot ← orderByText o os
    joinStmts [args, ot] o (c% " ")

/-- The value and the separator of LISTAGG, treeno/functions/aggregate.py 246-251. -/
def sepArgs (o : Opts) (s sep : Str) : Except Err Str :=
  if sep ≠ c% " " then joinStmts [s, quoteLit sep] o else .ok s

/-- The overflow clause of LISTAGG, treeno/functions/aggregate.py 253-258. -/
def overflowArgs (o : Opts) (s : Str) : Option (Str × Bool) → Except Err Str
  | some f => joinStmts [s, overflowText f] o (c% " ")
  | none => .ok s

/-- The arguments of LISTAGG, treeno/functions/aggregate.py 246-258. -/
def listaggArgs (o : Opts) (s sep : Str) (ov : Option (Str × Bool)) : Except Err Str := do
  let s ← sepArgs o s sep
  overflowArgs o s ov

/-- The table in front of a star, treeno/expression.py 311-320. -/
def starPrefix (t : Option Str) : Str := match truthy t with
  | some t => t ++ c% "."
  | none => []

/-- `Positive.sql`, `Negative.sql`, treeno/expression.py 509-519. -/
def UnOp.text : UnOp → Str
  | .pos => c% "+"
  | .neg => c% "-"

mutual
/-- The `sql` methods of the values; see the header. -/
def Expr.sqlN (neg : Bool) (o : Opts) : Expr → Except Err Str
  -- `Literal.sql`, treeno/expression.py 215-226
  | .lit v _ => .ok (litText v)
  -- `Field.sql`, treeno/expression.py 255-262
  | .field n t _ => .ok (chainIdents [truthy t, some n])
  | .fieldOf n b _ => do
    let s ← b.sqlN false o
    .ok (chainIdents [some s, some n])
  -- `AliasedValue.sql`, treeno/expression.py 287-288
  | .alias v n => do
    let s ← v.sqlN false o
    .ok (s ++ c% " " ++ quoteIdent n)
  -- `Star.sql`, treeno/expression.py 311-320
  | .star t _ => .ok (starPrefix t ++ c% "*")
  | .starOf b _ => do
    let s ← b.sqlN false o
    .ok (s ++ c% ".*")
  -- `AliasedStar.sql`, treeno/expression.py 337-339
  | .aliasedStar st as => do
    let a ← joinStmts as o
    let s ← st.sqlN false o
    .ok (s ++ c% " (" ++ a ++ c% ")")
  | .var n => .ok n
  -- `Lambda.sql`, treeno/expression.py 402-406
  | .lam ins b => do
    let i ← joinStmts ins o
    let s ← b.sqlN false o
    .ok ((if ins.length > 1 then parenS i else i) ++ c% " -> " ++ s)
  -- `builtin_unary_str`, treeno/expression.py 496-501
  | .un op v => do
    let s ← pemdas (some 8) v.prec true (v.sqlN false o) (v.sqlN false dfltOpts)
    .ok (op.text ++ s)
  -- `builtin_binary_str`, `Equal.to_string`, `NotEqual.to_string`, `DistinctFrom.to_string`,
  -- treeno/expression.py 487-493, 616-619, 630-633, 717-724
  | .bin op l r => do
    let op' := if neg then op.flip else op
    let o' := if neg = true ∧ op = .ne then dfltOpts else o
    let a ← pemdas op'.prec l.prec true (l.sqlN false o') (l.sqlN false dfltOpts)
    let b ← pemdas op'.prec r.prec false (r.sqlN false o') (r.sqlN false dfltOpts)
    .ok (binText o' neg op' a b)
  -- `Not.sql`, treeno/expression.py 580-597
  | .not v =>
    if v.negatable then v.sqlN true o
    else do
      let s ← pemdas (some 2) v.prec true (v.sqlN false o) (v.sqlN false dfltOpts)
      .ok (c% "NOT " ++ s)
  -- `IsNull.to_string`, treeno/expression.py 703-706
  | .isNull v => do
    let s ← pemdas (some 3) v.prec true (v.sqlN false o) (v.sqlN false dfltOpts)
    .ok (s ++ (if neg then c% " IS NOT NULL" else c% " IS NULL"))
  -- `Between.to_string`, treeno/expression.py 739-744
  | .between v l u => do
    let a ← pemdas (some 3) v.prec true (v.sqlN false o) (v.sqlN false dfltOpts)
    let b ← pemdas (some 3) l.prec true (l.sqlN false o) (l.sqlN false dfltOpts)
    let c ← pemdas (some 3) u.prec true (u.sqlN false o) (u.sqlN false dfltOpts)
    .ok (a ++ notText neg ++ c% " BETWEEN " ++ b ++ c% " AND " ++ c)
  -- `Array.sql`, treeno/expression.py 769-771
  | .array vs => do
    let s ← joinStmts (← Expr.sqls o vs) o
    .ok (c% "ARRAY[" ++ s ++ c% "]")
  -- `InQuery.to_string`, treeno/expression.py 786-791
  | .inQuery v q => do
    let a ← pemdas (some 3) v.prec true (v.sqlN false o) (v.sqlN false dfltOpts)
    let s ← q.sql o
    .ok (a ++ notText neg ++ c% " IN (" ++ s ++ c% ")")
  -- `InList.to_string`, treeno/expression.py 809-815
  | .inList v es => do
    let s ← joinStmts (← Expr.sqls o es) o
    let a ← pemdas (some 3) v.prec true (v.sqlN false o) (v.sqlN false dfltOpts)
    .ok (a ++ notText neg ++ c% " IN (" ++ s ++ c% ")")
  -- `Like.to_string`, treeno/expression.py 837-845
  | .like v p e => do
    let a ← pemdas (some 3) v.prec true (v.sqlN false o) (v.sqlN false dfltOpts)
    let b ← pemdas (some 3) p.prec true (p.sqlN false o) (p.sqlN false dfltOpts)
    let c ← Expr.sqlOpt o e
    .ok (a ++ notText neg ++ c% " LIKE " ++ b ++ optText (c% " ESCAPE ") c)
  -- `TypeConstructor.sql`, treeno/expression.py 879-884
  | .typeCtor v t => .ok (t ++ c% " " ++ quoteLit v)
  -- `RowConstructor.sql`, treeno/expression.py 897-901
  | .row vs => do
    let s ← joinStmts (← Expr.sqls o vs) o
    .ok (c% "(" ++ s ++ c% ")")
  -- `Interval.sql`, treeno/expression.py 926-928
  | .interval v f t => .ok (c% "INTERVAL " ++ v ++ c% " " ++ f ++ optText (c% " TO ") (truthy t))
  -- `Cast.sql`, `TryCast.sql`, treeno/expression.py 943-944, 959-960
  | .cast tr e t => do
    let s ← e.sqlN false o
    .ok ((if tr then c% "TRY_CAST(" else c% "CAST(") ++ s ++ c% " AS " ++ t.sql ++ c% ")")
  -- `Subscript.sql`, treeno/expression.py 971-972
  | .subscript v i => do
    let s ← v.sqlN false o
    let j ← i.sqlN false o
    .ok (s ++ c% "[" ++ j ++ c% "]")
  -- `Case.sql`, `Else.sql`, treeno/expression.py 1024-1034, 1003-1004
  | .case v bs e => do
    let ws ← Expr.whens o bs
    let es ← Expr.sqlOpt o e
    let vs ← Expr.sqlOpt o v
    .ok (c% "CASE " ++ optText [] vs ++
      pad (spacing o ++ join (spacing o) (ws ++ (es.map (c% "ELSE " ++ ·)).toList)) 4 ++
      spacing o ++ c% "END")
  -- `Function.to_string`, `UnaryFunction.sql`, treeno/functions/base.py 58-60, 67-68
  | .func f as => do
    let s ← joinStmts (← Expr.sqls o as) o
    .ok (f.name ++ c% "(" ++ s ++ c% ")")
  | .agg f as ob fl w ign => do
    let args ← joinStmts (← Expr.sqls o as) o
    let args ← aggArgs o args (← Ord.sqls o ob)
    let fs ← Expr.sqlOpt o fl
    let ws ← Win.sqlOpt o w
    let cs ← printEntries true (optEntry (c% "FILTER") (fs.map fun s => c% "(WHERE " ++ s ++ c% ")") ++
      (if ign then [(c% "IGNORE", c% "NULLS")] else []) ++ optEntry (c% "OVER") (ws.map parenS)) o
    .ok (f.name ++ c% "(" ++ args ++ c% ")" ++
      (if cs.isEmpty then [] else pad (spacing o ++ cs) o.spaces))
  | .listagg v sep ov ob => do
    let s ← v.sqlN false o
    let s ← listaggArgs o s sep ov
    let os ← Ord.sqls o ob
    let ot ← orderByText o os
    .ok (c% "LISTAGG(" ++ s ++ c% ")" ++
      pad (spacing o ++ (c% "WITHIN GROUP (" ++ ot ++ c% ")")) o.spaces)
  | .curTime f p => .ok (curTimeText f p)
  | .session f => .ok f.name
  | .normalize _ _ => .error .attributeError
  | .query q => q.sql o
/-- An optional attribute printed when present. -/
def Expr.sqlOpt (o : Opts) : Option Expr → Except Err (Option Str)
  | none => .ok none
  | some e => do
    let s ← e.sqlN false o
    .ok (some s)
def Win.sqlOpt (o : Opts) : Option Win → Except Err (Option Str)
  | none => .ok none
  | some e => do
    let s ← e.sql o
    .ok (some s)
def GroupBy.sqlOpt (o : Opts) : Option GroupBy → Except Err (Option Str)
  | none => .ok none
  | some e => do
    let s ← e.sql o
    .ok (some s)
def Rel.sqlOpt (o : Opts) : Option Rel → Except Err (Option Str)
  | none => .ok none
  | some e => do
    let s ← e.sql o
    .ok (some s)
def Crit.entriesOpt (o : Opts) : Option Crit → Except Err Entries
  | none => .ok []
  | some e => e.entries o
/-- `[value.sql(opts) for value in values]` -/
def Expr.sqls (o : Opts) : List Expr → Except Err (List Str)
  | [] => .ok []
  | e :: es => do
    let s ← e.sqlN false o
    let r ← Expr.sqls o es
    .ok (s :: r)
/-- `When.sql` of the branches, treeno/expression.py 988-989. -/
def Expr.whens (o : Opts) : List (Expr × Expr) → Except Err (List Str)
  | [] => .ok []
  | (c, v) :: bs => do
    let s ← c.sqlN false o
    let t ← v.sqlN false o
    let r ← Expr.whens o bs
    .ok ((c% "WHEN " ++ s ++ c% " THEN " ++ t) :: r)
/-- `OrderTerm.sql`, treeno/orderby.py 39-45. -/
def Ord.sql (o : Opts) : Ord → Except Err Str
  | .mk v d nf => do
    let s ← v.sqlN false o
    .ok (s ++ (if d then c% " DESC" else []) ++ (if nf then c% " NULLS FIRST" else []))
/-- `[order.sql(opts) for order in orderby]` -/
def Ord.sqls (o : Opts) : List Ord → Except Err (List Str)
  | [] => .ok []
  | e :: es => do
    let s ← e.sql o
    let r ← Ord.sqls o es
    .ok (s :: r)
/-- `FrameBound.sql`, treeno/window.py 54-76. -/
def Bound.sql (o : Opts) : Bound → Except Err Str
  | .bounded t e => do
    let s ← e.sqlN false o
    .ok (s ++ c% " " ++ t.text)
  | .unbounded t => .ok (c% "UNBOUNDED " ++ t.text)
  | .current => .ok (c% "CURRENT ROW")
/-- `Window.sql`, treeno/window.py 101-127. -/
def Win.sql (o : Opts) : Win → Except Err Str
  | .mk p ob ps f st en => do
    let pae ← listEntry o (c% "PARTITION") (c% "BY ") (← Expr.sqls o ps)
    let obe ← listEntry o (c% "ORDER") (c% "BY ") (← Ord.sqls o ob)
    let a ← st.sql o
    let b ← en.sql o
    printEntries true (parentEntry p ++ pae ++ obe ++
      [(f.text, join (c% " ") [c% "BETWEEN", a, c% "AND", b])]) o
/-- `Group.sql`, treeno/groupby.py 45-48, 69-70, 91-94, 115-116. -/
def Grp.sql (o : Opts) : Grp → Except Err Str
  | .set vs => do setText o (← Expr.sqls o vs)
  | .sets gs => do
    let s ← joinStmts (← Expr.setSqls o gs) o
    .ok (c% "GROUPING SETS (" ++ s ++ c% ")")
  | .cube vs => do
    let s ← joinStmts (← Expr.sqls o vs) o
    .ok (c% "CUBE (" ++ s ++ c% ")")
  | .rollup vs => do
    let s ← joinStmts (← Expr.sqls o vs) o
    .ok (c% "ROLLUP (" ++ s ++ c% ")")
def Expr.setSqls (o : Opts) : List (List Expr) → Except Err (List Str)
  | [] => .ok []
  | vs :: gs => do
    let s ← setText o (← Expr.sqls o vs)
    let r ← Expr.setSqls o gs
    .ok (s :: r)
def Grp.sqls (o : Opts) : List Grp → Except Err (List Str)
  | [] => .ok []
  | e :: es => do
    let s ← e.sql o
    let r ← Grp.sqls o es
    .ok (s :: r)
/-- `GroupBy.sql`, treeno/groupby.py 22-28. -/
def GroupBy.sql (o : Opts) : GroupBy → Except Err Str
  | .mk gs d => do
    let s ← joinStmts (← Grp.sqls o gs) o
    .ok (if d then c% "DISTINCT " ++ s else s)
/-- `Query.sql`; `_with_query_string_builder` and `_constraint_string_builder`,
treeno/relation.py 197-252. -/
def Query.sql (o : Opts) : Query → Except Err Str
  | .mk body off lim ob w => body.sql o
    (do listEntry o (c% "WITH") [] (← Named.namedSqls o w))
    (do
      let oe ← listEntry o (c% "ORDER") (c% "BY ") (← Ord.sqls o ob)
      .ok (oe ++ rowsEntries off lim))
/-- `SelectQuery.sql`, `SetQuery._to_string`, `TableQuery.sql` and `ValuesQuery.sql`,
treeno/relation.py 495-527, 311-321, 633-638, 698-705: `we` and `ce` build the WITH entry
and the constraint entries; a set operation calls neither. -/
def QBody.sql (o : Opts) (we ce : Except Err Entries) : QBody → Except Err Str
  | .select items fr wh gb hv d wins => do
    let we ← we
    let s ← joinStmts (← Expr.sqls o items) o
    let se := [(c% "SELECT", if d then c% "DISTINCT " ++ s else s)]
    let fs ← Rel.sqlOpt o fr
    let wh' ← Expr.sqlOpt o wh
    let g ← GroupBy.sqlOpt o gb
    let h ← Expr.sqlOpt o hv
    let wie ← listEntry o (c% "WINDOW") [] (← Win.namedSqls o wins)
    let ce ← ce
    printEntries true (we ++ se ++ optEntry (c% "FROM") (fs.map (fromText fr)) ++
      optEntry (c% "WHERE") wh' ++ optEntry (c% "GROUP") (g.map (c% "BY " ++ ·)) ++
      optEntry (c% "HAVING") h ++ wie ++ ce) o
  | .set k l r d => do
    let a ← l.sql o
    let b ← r.sql o
    .ok (relStr o true false a ++ spacing o ++ k.text ++ c% " " ++ quantText d ++ spacing o ++
      relStr o true false b)
  | .table t => do
    let we ← we
    let ce ← ce
    printEntries true (we ++ [(c% "TABLE", t.sql)] ++ ce) o
  | .values es => do
    let we ← we
    let s ← joinStmts (← Expr.sqls o es) o
    let ce ← ce
    printEntries true (we ++ [(c% "VALUES", s)] ++ ce) o
/-- The WINDOW clause items, treeno/relation.py 517-523. -/
def Win.namedSqls (o : Opts) : List (Str × Win) → Except Err (List Str)
  | [] => .ok []
  | (n, w) :: ws => do
    let s ← w.sql o
    let r ← Win.namedSqls o ws
    .ok ((n ++ c% " AS " ++ parenS s) :: r)
/-- `AliasedRelation.sql`, treeno/relation.py 746-751. -/
def Named.sql (o : Opts) : Named → Except Err Str
  | .mk r a cols => do
    let s ← r.sql o
    let c ← colsText o (c% " (") (c% ")") cols
    .ok (relStr o r.isQuery true s ++ c% " " ++ quoteIdent a ++ c)
/-- `AliasedRelation._named_query_sql`, treeno/relation.py 753-758. -/
def Named.namedSql (o : Opts) : Named → Except Err Str
  | .mk r a cols => do
    let c ← colsText o (c% " ") [] cols
    let s ← r.sql o
    .ok (quoteIdent a ++ c ++ c% " AS " ++ relStr o r.isQuery true s)
def Named.namedSqls (o : Opts) : List Named → Except Err (List Str)
  | [] => .ok []
  | e :: es => do
    let s ← e.namedSql o
    let r ← Named.namedSqls o es
    .ok (s :: r)
/-- The `sql` methods of the relations. -/
def Rel.sql (o : Opts) : Rel → Except Err Str
  -- `Table.sql`, treeno/relation.py 584-585
  | .table t => .ok t.sql
  | .query q => q.sql o
  -- `AliasedRelation.sql`, treeno/relation.py 746-751
  | .aliased n => n.sql o
  -- `Join.sql`, treeno/relation.py 925-936
  | .join l r t nat cr => do
    let a ← l.sql o
    let b ← r.sql o
    let ce ← Crit.entriesOpt o cr
    printEntries false ([(relStr o l.isQuery true a, []),
      ((if nat then c% "NATURAL " else []) ++ t.text ++ c% " JOIN", relStr o r.isQuery true b)] ++ ce) o
  -- `Unnest.sql`, treeno/relation.py 992-998
  | .unnest as ord => do
    let s ← joinStmts (← Expr.sqls o as) o
    -- `str_builder += " WITH ORDINALITY"` adds one list element per character
    .ok (join (c% " ") ((c% "UNNEST(" ++ s ++ c% ")") ::
      (if ord then (c% " WITH ORDINALITY").map ([·]) else [])))
  -- `Lateral.sql`, treeno/relation.py 1031-1032
  | .lateral q => do
    let s ← q.sql o
    .ok (c% "LATERAL(" ++ s ++ c% ")")
  -- `TableSample.sql`, treeno/relation.py 1076-1084
  | .sample r t p => do
    let s ← r.sql o
    let q ← p.sqlN false o
    .ok (relStr o (r.isQuery || r.isJoin) false s ++ c% " TABLESAMPLE " ++ t.text ++ c% "(" ++ q ++
      c% ")")
/-- `JoinUsingCriteria.build_sql`, `JoinOnCriteria.build_sql`, treeno/relation.py 839-840, 868-871. -/
def Crit.entries (o : Opts) : Crit → Except Err Entries
  | .using cols => do
    let s ← joinStmts cols o
    .ok [(c% "USING", parenS s)]
  | .on e => do
    let s ← e.sqlN false o
    .ok [(c% "ON", pad s o.spaces)]
end

/-- `value.sql(opts)` -/
abbrev Expr.sql (o : Opts) (e : Expr) : Except Err Str := e.sqlN false o

end Treeno
