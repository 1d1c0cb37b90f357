import Verif.Cli
import Verif.Object
/-!
# The command line: `treeno tree`

treeno/cli.py 65-110.  `PTree` is `nltk.tree.Tree`; the commands hand the tree to `Tree.pretty_print` or
`Tree.draw`, which are not modelled: the result of the command is the tree.
-/
namespace Treeno

/-- `nltk.tree.Tree`, whose children are trees and strings. -/
inductive PTree
  | leaf (s : Str)
  | node (label : Str) (kids : List PTree)

/-! ## Names of classes -/

/-- treeno/functions/{common,conditional,math,datetime,string}.py -/
def Fn.cls : Fn → Str
  | .concat => c% "Concatenate" | .if_ => c% "If" | .coalesce => c% "Coalesce" | .nullif => c% "NullIf"
  | .try_ => c% "Try" | .power => c% "Power" | .date => c% "Date" | .lastDayOfMonth => c% "LastDayOfMonth"
  | .fromIso8601Timestamp => c% "FromISO8601Timestamp"
  | .fromIso8601TimestampNanos => c% "FromISO8601TimestampNanos" | .fromIso8601Date => c% "FromISO8601Date"
  | .atTimezone => c% "AtTimezone" | .withTimezone => c% "WithTimezone" | .fromUnixtime => c% "FromUnixtime"
  | .fromUnixtimeNanos => c% "FromUnixtimeNanos" | .now => c% "Now" | .toIso8601 => c% "ToISO8601"
  | .toMilliseconds => c% "ToMilliseconds" | .toUnixtime => c% "ToUnixtime" | .dateTrunc => c% "DateTrunc"
  | .dateAdd => c% "DateAdd" | .dateDiff => c% "DateDiff" | .parseDuration => c% "ParseDuration"
  | .humanReadableSeconds => c% "HumanReadableSeconds" | .chr => c% "Chr" | .codepoint => c% "CodePoint"
  | .hammingDistance => c% "HammingDistance" | .length => c% "Length"
  | .levenshteinDistance => c% "LevenshteinDistance" | .lower => c% "Lower" | .lpad => c% "LPad"
  | .ltrim => c% "LTrim" | .luhnCheck => c% "LuhnCheck" | .replace => c% "Replace" | .reverse => c% "Reverse"
  | .rpad => c% "RPad" | .rtrim => c% "RTrim" | .soundex => c% "Soundex" | .toUtf8 => c% "ToUTF8"
  | .fromUtf8 => c% "FromUTF8"

/-- treeno/functions/aggregate.py 111-686 -/
def Agg.cls : Agg → Str
  | .sum => c% "Sum" | .arbitrary => c% "Arbitrary" | .arrayAgg => c% "ArrayAgg" | .avg => c% "Avg"
  | .boolAnd => c% "BoolAnd" | .boolOr => c% "BoolOr" | .checksum => c% "Checksum" | .count => c% "Count"
  | .countIf => c% "CountIf" | .every => c% "Every" | .geometricMean => c% "GeometricMean" | .max => c% "Max"
  | .maxBy => c% "MaxBy" | .min => c% "Min" | .minBy => c% "MinBy" | .bitwiseAndAgg => c% "BitwiseAndAgg"
  | .bitwiseOrAgg => c% "BitwiseOrAgg" | .histogram => c% "Histogram" | .mapAgg => c% "MapAgg"
  | .mapUnion => c% "MapUnion" | .multimapAgg => c% "MultiMapAgg" | .approxDistinct => c% "ApproxDistinct"
  | .approxMostFrequent => c% "ApproxMostFrequent" | .approxPercentile => c% "ApproxPercentile"
  | .approxSet => c% "ApproxSet" | .merge => c% "Merge" | .numericHistogram => c% "NumericHistogram"
  | .qdigestAgg => c% "QDigestAgg" | .tdigestAgg => c% "TDigestAgg" | .corr => c% "Corr"
  | .covarPop => c% "CovarPop" | .covarSamp => c% "CovarSamp" | .kurtosis => c% "Kurtosis"
  | .regrIntercept => c% "RegrIntercept" | .regrSlope => c% "RegrSlope" | .skewness => c% "Skewness"
  | .stddev => c% "StdDev" | .stddevPop => c% "StdDevPop" | .stddevSamp => c% "StdDevSamp"
  | .variance => c% "Variance" | .varPop => c% "VarPop" | .varSamp => c% "VarSamp"

/-- treeno/functions/datetime.py 56-86 -/
def CurFn.cls : CurFn → Str
  | .currentTime => c% "CurrentTime" | .currentTimestamp => c% "CurrentTimestamp"
  | .localTime => c% "LocalTime" | .localTimestamp => c% "LocalTimestamp"

/-- treeno/functions/datetime.py 26-37 and treeno/functions/session.py -/
def SessFn.cls : SessFn → Str
  | .currentDate => c% "CurrentDate" | .currentUser => c% "CurrentUser" | .currentCatalog => c% "CurrentCatalog"
  | .currentSchema => c% "CurrentSchema" | .currentPath => c% "CurrentPath"

/-- treeno/expression.py 504-519 -/
def UnOp.cls : UnOp → Str
  | .pos => c% "Positive" | .neg => c% "Negative"

/-- treeno/expression.py 522-727 -/
def BinOp.cls : BinOp → Str
  | .add => c% "Add" | .sub => c% "Minus" | .mul => c% "Multiply" | .div => c% "Divide" | .mod => c% "Modulus"
  | .eq => c% "Equal" | .ne => c% "NotEqual" | .gt => c% "GreaterThan" | .ge => c% "GreaterThanOrEqual"
  | .lt => c% "LessThan" | .le => c% "LessThanOrEqual" | .and => c% "And" | .or => c% "Or"
  | .distinct => c% "DistinctFrom"

/-- treeno/relation.py 344-409 -/
def SetKind.cls : SetKind → Str
  | .intersect => c% "IntersectQuery" | .except => c% "ExceptQuery" | .union => c% "UnionQuery"

/-- `type(node).__name__` -/
def Cls.name : Cls → Str
  | .literal => c% "Literal" | .field => c% "Field" | .aliasedValue => c% "AliasedValue" | .star => c% "Star"
  | .aliasedStar => c% "AliasedStar" | .variable => c% "Variable" | .lambda => c% "Lambda" | .un op => op.cls
  | .bin op => op.cls | .not => c% "Not" | .isNull => c% "IsNull" | .between => c% "Between" | .array => c% "Array"
  | .inQuery => c% "InQuery" | .inList => c% "InList" | .like => c% "Like" | .typeConstructor => c% "TypeConstructor"
  | .rowConstructor => c% "RowConstructor" | .interval => c% "Interval"
  | .cast try_ => if try_ then c% "TryCast" else c% "Cast" | .subscript => c% "Subscript" | .case => c% "Case"
  | .when => c% "When" | .else_ => c% "Else" | .fn f => f.cls | .agg f => f.cls | .listAgg => c% "ListAgg"
  | .overflowFiller => c% "OverflowFiller" | .curTime f => f.cls | .session f => f.cls | .normalize => c% "Normalize"
  | .orderTerm => c% "OrderTerm" | .boundedFrameBound => c% "BoundedFrameBound"
  | .unboundedFrameBound => c% "UnboundedFrameBound" | .currentFrameBound => c% "CurrentFrameBound"
  | .window => c% "Window" | .groupingSet => c% "GroupingSet" | .groupingSetList => c% "GroupingSetList"
  | .cube => c% "Cube" | .rollup => c% "Rollup" | .groupBy => c% "GroupBy" | .selectQuery => c% "SelectQuery"
  | .setQuery k => k.cls | .tableQuery => c% "TableQuery" | .valuesQuery => c% "ValuesQuery" | .table => c% "Table"
  | .aliasedRelation => c% "AliasedRelation" | .join => c% "Join" | .joinConfig => c% "JoinConfig"
  | .joinUsingCriteria => c% "JoinUsingCriteria" | .joinOnCriteria => c% "JoinOnCriteria" | .unnest => c% "Unnest"
  | .lateral => c% "Lateral" | .tableSample => c% "TableSample" | .dataType => c% "DataType" | .schema => c% "Schema"
  | .schemaField => c% "SchemaField"

/-! ## `str` -/

/-- `str(value)` of a constant. -/
def Scalar.pyStr : Scalar → Str
  | .bool b => if b then c% "True" else c% "False"
  | .int n => intStr n
  | .float r => r
  | .dec d => d.str
  | .str s => s

/-- The names of the parameters of a type in the order of `FIELDS`, treeno/datatypes/types.py 238-277, for the types
that `DataType.sql` does not print in another way. -/
def typeFields (name : Str) : List Str :=
  if name = c% "DECIMAL" then [c% "precision", c% "scale"]
  else if name = c% "VARCHAR" ∨ name = c% "CHAR" then [c% "max_chars"]
  else if name = c% "ARRAY" ∨ name = c% "QDIGEST" then [c% "dtype"]
  else if name = c% "MAP" then [c% "from_dtype", c% "to_dtype"]
  else []

/-- `DataType.sql`, treeno/datatypes/types.py 112-137 with 154-178, given the texts of the parameters.  (All
parameters of a type that exists are present, except the optional ones.) -/
def typeText (name : Str) (params : List (Str × Str)) : Str :=
  if name = c% "TIMESTAMP" ∨ name = c% "TIME" then
    name ++ (match dget (c% "precision") params with
      | some p => c% "(" ++ p ++ c% ")"
      | none => []) ++ (if dget (c% "timezone") params = some (c% "True") then c% " WITH TIME ZONE" else [])
  else if name = c% "INTERVAL" then
    name ++ c% " " ++ (dget (c% "from_interval") params).getD [] ++ c% " TO " ++ (dget (c% "to_interval") params).getD []
  else if name = c% "ROW" then name ++ c% "(" ++ (dget (c% "dtypes") params).getD [] ++ c% ")"
  else if params.isEmpty then name
  else name ++ c% "(" ++ join (c% ",") ((typeFields name).map fun k => (dget k params).getD []) ++ c% ")"

mutual
/-- `str(node)` for what `treeify` prints with it, treeno/cli.py 88-92: constants, enum members and data types.
(A list is only reached as the parameter `dtypes` of ROW, for which it is `emit_row`'s join.) -/
def Obj.pyStr : Obj → Str
  | .none => c% "None"
  | .scalar s => s.pyStr
  | .enum c n => c ++ c% "." ++ n
  | .list l => join (c% ",") (Obj.pyStrList l)
  | .inst .dataType [(_, .scalar (.str name)), (_, .dict params)] => typeText name (Obj.pyStrDict params)
  | _ => []
def Obj.pyStrList : List Obj → List Str
  | [] => []
  | x :: r => x.pyStr :: Obj.pyStrList r
def Obj.pyStrDict : List (Str × Obj) → List (Str × Str)
  | [] => []
  | (k, v) :: r => (k, v.pyStr) :: Obj.pyStrDict r
end

/-! ## `treeify` -/

/-- `type(node).default()` of the subclasses of `DefaultableEnum`: treeno/base.py 156-164, treeno/orderby.py 15-30,
treeno/window.py 19-37. -/
def enumDefault (cls : Str) : Option Str :=
  dget cls [(c% "SetQuantifier", c% "ALL"), (c% "OrderType", c% "ASC"), (c% "NullOrder", c% "LAST"),
    (c% "NullTreatment", c% "RESPECT"), (c% "FrameType", c% "RANGE")]

/-- `key.startswith("_")` -/
def hiddenKey : Str → Bool
  | '_' :: _ => true
  | _ => false

/-- `_should_skip`, treeno/cli.py 65-75. -/
def shouldSkip (key : Str) (o : Obj) : Bool :=
  hiddenKey key || (match o with
    | .none => true
    | .enum c n => enumDefault c == some n
    | .list l => l.isEmpty
    | .dict d => d.isEmpty
    | _ => false)

/-- `Tree(k, t)` for a tree `t`, treeno/cli.py 86: the constructor copies the children of `t`, and refuses a string. -/
def PTree.relabel (k : Str) : PTree → Except Err PTree
  | .leaf _ => .error .typeError
  | .node _ ks => .ok (.node k ks)

mutual
/-- `treeify`, treeno/cli.py 78-98.  (`Schema`s are not reached: they are held by a hidden attribute.) -/
def Obj.treeify : Obj → Except Err PTree
  | .list l => do
    let ks ← Obj.treeifyList l
    .ok (.node (c% "<list>") ks)
  | .dict d => do
    let ks ← Obj.treeifyDict d
    .ok (.node (c% "<dict>") ks)
  | .inst .dataType as => .ok (.leaf (Obj.inst .dataType as).pyStr)
  | .inst c as => do
    let ks ← Obj.treeifyAttrs as
    .ok (.node c.name ks)
  | o => .ok (.leaf o.pyStr)
def Obj.treeifyList : List Obj → Except Err (List PTree)
  | [] => .ok []
  | x :: r => do
    let t ← x.treeify
    let ts ← Obj.treeifyList r
    .ok (t :: ts)
def Obj.treeifyDict : List (Str × Obj) → Except Err (List PTree)
  | [] => .ok []
  | (k, v) :: r => do
    let t ← v.treeify
    let t ← t.relabel k
    let ts ← Obj.treeifyDict r
    .ok (t :: ts)
def Obj.treeifyAttrs : List (Str × Obj) → Except Err (List PTree)
  | [] => .ok []
  | (k, v) :: r => if shouldSkip k v then Obj.treeifyAttrs r else do
    let t ← v.treeify
    let ts ← Obj.treeifyAttrs r
    .ok (.node k [t] :: ts)
end

/-- The object that `get_sql_object` returns. -/
def SqlObject.obj : SqlObject → Obj
  | .query q => q.obj
  | .expression e => e.obj
  | .type t => t.obj

/-- `tree.pretty_print(stream=sio)`, treeno/cli.py 107: a string has no such method. -/
def prettyPrint : PTree → Except Err PTree
  | .leaf _ => .error .attributeError
  | .node l ks => .ok (.node l ks)

/-- `tree`, treeno/cli.py 101-110. -/
noncomputable def treeCommand (c : Construct) (s : Str) : Except Err PTree := do
  let x ← getSqlObject s c
  let t ← x.obj.treeify
  prettyPrint t

end Treeno
