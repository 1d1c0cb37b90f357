import Verif.Types
import Verif.Inference
/-!
# The query tree

The node classes of `treeno/expression.py`, `orderby.py`, `groupby.py`, `window.py`, `relation.py`
and `treeno/functions/*.py`, as mutually inductive types.

* Optional lists (`orderby`, `partitions`, `column_aliases`, ...) use `[]` for both `None` and the
  empty list: the code only tests their truth value.
* `data_type` is stored only where the code takes it from outside (`Literal`, `Field`, `Star`,
  `Cast`, `TryCast`); everywhere else it is a function of the node (`Verif/Typing.lean`).
  Simplification: every `Value` constructor also accepts a `data_type=` keyword; apart from the
  classes above the model has the default there.
* Values hold SQL nodes only where the annotations say so (Python does not enforce annotations).
-/
namespace Treeno

/-- `Positive`, `Negative`: treeno/expression.py 504-519. -/
inductive UnOp
  | pos | neg
  deriving DecidableEq, Repr

/-- The `BinaryExpression` subclasses, treeno/expression.py 522-727. -/
inductive BinOp
  | add | sub | mul | div | mod | eq | ne | gt | ge | lt | le | and | or | distinct
  deriving DecidableEq, Repr

/-- `JoinType`, treeno/relation.py 783-788. -/
inductive JoinType
  | inner | left | right | outer | cross
  deriving DecidableEq, Repr

/-- `SampleType`, treeno/relation.py 1042-1044. -/
inductive SampleType
  | bernoulli | system
  deriving DecidableEq, Repr

/-- `FrameType`, treeno/window.py 30-37. -/
inductive FrameType
  | range | rows | groups
  deriving DecidableEq, Repr

/-- `BoundType`, treeno/window.py 40-42. -/
inductive BoundType
  | preceding | following
  deriving DecidableEq, Repr

/-- `IntersectQuery`, `ExceptQuery`, `UnionQuery`: treeno/relation.py 345-409. -/
inductive SetKind
  | intersect | except | union
  deriving DecidableEq, Repr

/-- `NormalForm`, treeno/functions/string.py 19-23. -/
inductive NormalForm
  | nfd | nfc | nfkd | nfkc
  deriving DecidableEq, Repr

/-- The subclasses of `ParametrizedDateTimeFunction`, treeno/functions/datetime.py 56-86. -/
inductive CurFn
  | currentTime | currentTimestamp | localTime | localTimestamp
  deriving DecidableEq, Repr

/-- Functions printed as a bare keyword: `CurrentDate` (treeno/functions/datetime.py 26-37) and
treeno/functions/session.py. -/
inductive SessFn
  | currentDate | currentUser | currentCatalog | currentSchema | currentPath
  deriving DecidableEq, Repr

/-- Registered functions that are not aggregates and are printed by `Function.to_string`
(treeno/functions/base.py 58-60): `common.py`, `conditional.py`, `math.py`, `datetime.py`,
`string.py`. -/
inductive Fn
  | concat | if_ | coalesce | nullif | try_ | power
  | date | lastDayOfMonth | fromIso8601Timestamp | fromIso8601TimestampNanos | fromIso8601Date
  | atTimezone | withTimezone | fromUnixtime | fromUnixtimeNanos | now | toIso8601
  | toMilliseconds | toUnixtime | dateTrunc | dateAdd | dateDiff | parseDuration
  | humanReadableSeconds
  | chr | codepoint | hammingDistance | length | levenshteinDistance | lower | lpad | ltrim
  | luhnCheck | replace | reverse | rpad | rtrim | soundex | toUtf8 | fromUtf8
  deriving DecidableEq, Repr

/-- Registered aggregate functions except LISTAGG, treeno/functions/aggregate.py 113-686. -/
inductive Agg
  | sum | arbitrary | arrayAgg | avg | boolAnd | boolOr | checksum | count | countIf | every
  | geometricMean | max | maxBy | min | minBy | bitwiseAndAgg | bitwiseOrAgg | histogram | mapAgg
  | mapUnion | multimapAgg | approxDistinct | approxMostFrequent | approxPercentile | approxSet
  | merge | numericHistogram | qdigestAgg | tdigestAgg | corr | covarPop | covarSamp | kurtosis
  | regrIntercept | regrSlope | skewness | stddev | stddevPop | stddevSamp | variance | varPop
  | varSamp
  deriving DecidableEq, Repr

/-- What Python's `==` sees of a relation object (see `keyEq`): any two queries compare as true
because `Value.__eq__` builds an `Equal` node (treeno/expression.py 129-130), and so do any two values
inside other relations.  Simplification: two tables with the same qualified name are the same relation
(Python also compares the columns they remember). -/
inductive Key
  | query
  | table (name : Str) (schema catalog : Option Str)
  | aliased (rel : Key) (alias : Str) (cols : List Str)
  /-- `crit`: `none`; `some none` for ON; `some (some cols)` for USING. -/
  | join (left right : Key) (type : JoinType) (natural : Bool) (crit : Option (Option (List Str)))
  | unnest (arrays : Nat) (ordinality : Bool)
  | lateral
  | sample (rel : Key) (type : SampleType)
  deriving DecidableEq, Repr

/-- `SchemaField`, treeno/relation.py 115-131; of the source relation only `Key` is kept. -/
structure Col where
  name : Option Str
  source : Key
  ty : Ty
  deriving DecidableEq, Repr

/-- `Table`, treeno/relation.py 545-577. -/
structure TableRef where
  name : Str
  schema : Option Str := none
  catalog : Option Str := none
  cols : List Col := []
  deriving DecidableEq, Repr

mutual
/-- `Value` and its subclasses, treeno/expression.py, treeno/functions/*.py. -/
inductive Expr
  /-- `Literal`, 177-231; `none` is Python `None`. -/
  | lit (v : Option Scalar) (ty : Ty)
  /-- `Field` with `table` a string or `None`, 235-266. -/
  | field (name : Str) (table : Option Str) (ty : Ty)
  /-- `Field` with `table` a `Value`. -/
  | fieldOf (name : Str) (base : Expr) (ty : Ty)
  /-- `AliasedValue`, 270-291. -/
  | alias (value : Expr) (name : Str)
  /-- `Star` with `table` a string or `None`, 295-324. -/
  | star (table : Option Str) (ty : Ty)
  /-- `Star` with `table` a `Value`. -/
  | starOf (base : Expr) (ty : Ty)
  /-- `AliasedStar`, 328-342. -/
  | aliasedStar (star : Expr) (aliases : List Str)
  /-- `Lambda.Variable`, 352-363. -/
  | var (name : Str)
  /-- `Lambda`, 346-411; `inputs` by name. -/
  | lam (inputs : List Str) (body : Expr)
  /-- `Positive`, `Negative`, 504-519. -/
  | un (op : UnOp) (value : Expr)
  /-- `BinaryExpression`, 469-476. -/
  | bin (op : BinOp) (left right : Expr)
  /-- `Not`, 576-597. -/
  | not (value : Expr)
  /-- `IsNull`, 699-709. -/
  | isNull (value : Expr)
  /-- `Between`, 731-752. -/
  | between (value lower upper : Expr)
  /-- `Array`, 756-775. -/
  | array (values : List Expr)
  /-- `InQuery`, 779-798. -/
  | inQuery (value : Expr) (query : Query)
  /-- `InList`, 802-823. -/
  | inList (value : Expr) (exprs : List Expr)
  /-- `Like`, 827-854. -/
  | like (value pattern : Expr) (escape : Option Expr)
  /-- `TypeConstructor`, 858-887. -/
  | typeCtor (value typeName : Str)
  /-- `RowConstructor`, 891-905. -/
  | row (values : List Expr)
  /-- `Interval`, 909-931. -/
  | interval (value fromI : Str) (toI : Option Str)
  /-- `Cast` (`false`), `TryCast` (`true`), 935-963. -/
  | cast (try_ : Bool) (expr : Expr) (ty : Ty)
  /-- `Subscript`, 967-976. -/
  | subscript (value index : Expr)
  /-- `Case` with its `When` and `Else`, 981-1042. -/
  | case (value : Option Expr) (branches : List (Expr × Expr)) (else_ : Option Expr)
  /-- A non-aggregate `Function`; arguments in attribute order. -/
  | func (fn : Fn) (args : List Expr)
  /-- An `AggregateFunction`, treeno/functions/aggregate.py 31-81; arguments in attribute order. -/
  | agg (fn : Agg) (args : List Expr) (orderby : List Ord) (filter : Option Expr)
      (window : Option Win) (ignoreNulls : Bool)
  /-- `ListAgg`, treeno/functions/aggregate.py 224-268; the overflow filler is (text, with count). -/
  | listagg (value : Expr) (separator : Str) (overflow : Option (Str × Bool)) (orderby : List Ord)
  /-- `ParametrizedDateTimeFunction`, treeno/functions/datetime.py 40-86. -/
  | curTime (fn : CurFn) (precision : Int)
  /-- `CurrentDate` and the session functions. -/
  | session (fn : SessFn)
  /-- `Normalize`, treeno/functions/string.py 258-278. -/
  | normalize (value : Expr) (form : Option NormalForm)
  /-- A `Query` used as a value. -/
  | query (q : Query)
/-- `OrderTerm`, treeno/orderby.py 33-48. -/
inductive Ord
  | mk (value : Expr) (desc nullsFirst : Bool)
/-- `FrameBound`, treeno/window.py 45-79. -/
inductive Bound
  | bounded (type : BoundType) (offset : Expr)
  | unbounded (type : BoundType)
  | current
/-- `Window`, treeno/window.py 90-139. -/
inductive Win
  | mk (parent : Option Str) (orderby : List Ord) (partitions : List Expr) (frame : FrameType)
      (start stop : Bound)
/-- `Group`, treeno/groupby.py 35-120; a `GroupingSet` inside `GroupingSetList` is its values. -/
inductive Grp
  | set (values : List Expr)
  | sets (groups : List (List Expr))
  | cube (values : List Expr)
  | rollup (values : List Expr)
/-- `GroupBy`, treeno/groupby.py 15-32. -/
inductive GroupBy
  | mk (groups : List Grp) (distinct : Bool)
/-- `Query`, treeno/relation.py 184-252: the common attributes around the class-specific part. -/
inductive Query
  | mk (body : QBody) (offset limit : Option Int) (orderby : List Ord) (with_ : List Named)
/-- The class-specific part of a `Query`. -/
inductive QBody
  /-- `SelectQuery`, 413-541; `window` is the insertion-ordered dict. -/
  | select (items : List Expr) (from_ : Option Rel) (where_ : Option Expr)
      (groupby : Option GroupBy) (having : Option Expr) (distinct : Bool)
      (window : List (Str × Win))
  /-- `SetQuery`, 256-409. -/
  | set (kind : SetKind) (left right : Query) (distinct : Bool)
  /-- `TableQuery`, 611-649. -/
  | table (t : TableRef)
  /-- `ValuesQuery`, 653-715. -/
  | values (exprs : List Expr)
/-- `AliasedRelation`, 719-780. -/
inductive Named
  | mk (rel : Rel) (alias : Str) (cols : List Str)
/-- `Relation`. -/
inductive Rel
  /-- `Table`. -/
  | table (t : TableRef)
  /-- a `Query` used as a relation. -/
  | query (q : Query)
  /-- `AliasedRelation`. -/
  | aliased (n : Named)
  /-- `Join` with its `JoinConfig`, 878-956. -/
  | join (left right : Rel) (type : JoinType) (natural : Bool) (crit : Option Crit)
  /-- `Unnest`, 959-1018. -/
  | unnest (arrays : List Expr) (ordinality : Bool)
  /-- `Lateral`, 1022-1038. -/
  | lateral (q : Query)
  /-- `TableSample`, 1047-1092. -/
  | sample (rel : Rel) (type : SampleType) (percentage : Expr)
/-- `JoinCriteria`, 791-871. -/
inductive Crit
  | using (cols : List Str)
  | on (constraint : Expr)
end

end Treeno
