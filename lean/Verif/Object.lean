import Verif.Typing
/-!
# Trees as Python objects, and `Sql.equals`

`Obj` is the part of the Python data model that `attr.asdict` and `==` look at: constants, containers, enum
members and instances of attrs classes.  `Expr.obj` and its companions give the object that a node of the model
stands for, attribute by attribute, in the order of `attr.fields`: the attributes of the base classes come first.

Simplifications:

* an optional list of the model that is empty stands for the default of the attribute (`None`, for `with_` the
  empty dict), see `Verif/Ast.lean`;
* a float is its `repr` and differs from every number of another class (Python: `1.0 == 1`), two floats are the
  same when their `repr`s are (Python: `0.0 == -0.0`);
* the relations that the columns remembered by a table come from are compared by `Key`, as in `Verif/Ast.lean`.
  (A table that remembers columns of which it is the source itself contains itself; `asdict` does not return then.)
-/
namespace Treeno

/-- The attrs classes of treeno. -/
inductive Cls
  | literal | field | aliasedValue | star | aliasedStar | variable | lambda
  | un (op : UnOp) | bin (op : BinOp) | not | isNull | between | array | inQuery | inList | like
  | typeConstructor | rowConstructor | interval | cast (try_ : Bool) | subscript | case | when | else_
  | fn (f : Fn) | agg (f : Agg) | listAgg | overflowFiller | curTime (f : CurFn) | session (f : SessFn) | normalize
  | orderTerm | boundedFrameBound | unboundedFrameBound | currentFrameBound | window
  | groupingSet | groupingSetList | cube | rollup | groupBy
  | selectQuery | setQuery (k : SetKind) | tableQuery | valuesQuery
  | table | aliasedRelation | join | joinConfig | joinUsingCriteria | joinOnCriteria | unnest | lateral | tableSample
  | dataType | schema | schemaField
  deriving DecidableEq, Repr

/-- Python objects. -/
inductive Obj
  | none
  | scalar (s : Scalar)
  /-- a member of an enum class -/
  | enum (cls name : Str)
  /-- a relation, as far as `==` sees it -/
  | rel (k : Key)
  | list (l : List Obj)
  | dict (kvs : List (Str × Obj))
  /-- an instance of an attrs class -/
  | inst (cls : Cls) (attrs : List (Str × Obj))

abbrev Obj.str (s : Str) : Obj := .scalar (.str s)
abbrev Obj.int (n : Int) : Obj := .scalar (.int n)
abbrev Obj.bool (b : Bool) : Obj := .scalar (.bool b)
def Obj.optStr : Option Str → Obj
  | some s => .str s
  | Option.none => .none
def Obj.optInt : Option Int → Obj
  | some n => .int n
  | Option.none => .none
/-- An optional list. -/
def Obj.optList : List Obj → Obj
  | [] => .none
  | x :: r => .list (x :: r)

mutual
/-- `attr.asdict` (attrs, `_funcs.py`): an instance becomes the dict of its attributes, recursively, also inside
lists and dicts; everything else stays.  The class is not recorded. -/
def Obj.asdict : Obj → Obj
  | .inst _ as => .dict (Obj.asdicts as)
  | .list l => .list (Obj.asdictList l)
  | .dict d => .dict (Obj.asdicts d)
  | .none => .none
  | .scalar s => .scalar s
  | .enum c n => .enum c n
  | .rel k => .rel k
def Obj.asdictList : List Obj → List Obj
  | [] => []
  | x :: r => x.asdict :: Obj.asdictList r
def Obj.asdicts : List (Str × Obj) → List (Str × Obj)
  | [] => []
  | (k, v) :: r => (k, v.asdict) :: Obj.asdicts r
end

/-- The numerical comparison of two decimals: scale both to the smaller exponent. -/
def Dec.numEq (a b : Dec) : Bool :=
  let v (d : Dec) : Int := (if d.neg then -1 else 1) * d.coeff * 10 ^ (d.exp - min a.exp b.exp).toNat
  v a == v b

/-- The decimal with the value of an integer. -/
def Dec.ofInt (n : Int) : Dec := ⟨decide (n < 0), n.natAbs, 0⟩

/-- `==` on constants: `bool` is an integer, and integers and decimals compare by value. -/
def Scalar.pyEq : Scalar → Scalar → Bool
  | .bool a, .bool b => a == b
  | .bool a, .int b => a.toInt == b
  | .int a, .bool b => a == b.toInt
  | .int a, .int b => a == b
  | .bool a, .dec b => (Dec.ofInt a.toInt).numEq b
  | .dec a, .bool b => a.numEq (Dec.ofInt b.toInt)
  | .int a, .dec b => (Dec.ofInt a).numEq b
  | .dec a, .int b => a.numEq (Dec.ofInt b)
  | .dec a, .dec b => a.numEq b
  | .float a, .float b => a == b
  | .str a, .str b => a == b
  | _, _ => false

mutual
/-- `==` on the values that `asdict` returns.  Lists compare elementwise.  Dicts are equal when they have equally
many keys and every key of the one is in the other, with an equal value. -/
def Obj.pyEq : Obj → Obj → Bool
  | .none, .none => true
  | .scalar a, .scalar b => a.pyEq b
  | .enum c n, .enum c' n' => c == c' && n == n'
  | .rel k, .rel k' => k == k'
  | .list l, .list l' => Obj.pyEqList l l'
  | .dict d, .dict d' => d.length == d'.length && Obj.pyEqDict d d'
  | _, _ => false
def Obj.pyEqList : List Obj → List Obj → Bool
  | [], [] => true
  | x :: r, x' :: r' => x.pyEq x' && Obj.pyEqList r r'
  | _, _ => false
def Obj.pyEqDict : List (Str × Obj) → List (Str × Obj) → Bool
  | [], _ => true
  | (k, v) :: r, d => (match dget k d with
    | some v' => v.pyEq v'
    | Option.none => false) && Obj.pyEqDict r d
end

/-- `Sql.equals`, treeno/base.py 129-146. -/
def Obj.equals : Obj → Obj → Bool
  | .inst c as, .inst c' as' => c == c' && (Obj.inst c as).asdict.pyEq (Obj.inst c' as').asdict
  | _, _ => false

/-! ## Data types -/

/-- A parameter that is absent when it has no value. -/
def Obj.optAttr (k : Str) : Option Int → List (Str × Obj)
  | some n => [(k, .int n)]
  | Option.none => []

/-- `DataType`, treeno/datatypes/types.py 67-76. -/
def Obj.dataType (name : Str) (params : List (Str × Obj)) : Obj :=
  .inst .dataType [(c% "type_name", .str name), (c% "parameters", .dict params)]

mutual
/-- The object of a type; its parameters as in `Ty.params`. -/
def Ty.obj : Ty → Obj
  | .simple s => .dataType s.name []
  | .decimal p s => .dataType (c% "DECIMAL") [(c% "precision", .int p), (c% "scale", .int s)]
  | .varchar n => .dataType (c% "VARCHAR") (Obj.optAttr (c% "max_chars") n)
  | .char n => .dataType (c% "CHAR") [(c% "max_chars", .int n)]
  | .time p tz => .dataType (c% "TIME") ((c% "timezone", .bool tz) :: Obj.optAttr (c% "precision") p)
  | .timestamp p tz => .dataType (c% "TIMESTAMP") ((c% "timezone", .bool tz) :: Obj.optAttr (c% "precision") p)
  | .interval k => .dataType (c% "INTERVAL") [(c% "from_interval", .str k.fromS), (c% "to_interval", .str k.toS)]
  | .array t => .dataType (c% "ARRAY") [(c% "dtype", t.obj)]
  | .map a b => .dataType (c% "MAP") [(c% "from_dtype", a.obj), (c% "to_dtype", b.obj)]
  | .row l => .dataType (c% "ROW") [(c% "dtypes", .list (Ty.objs l))]
  | .qdigest t => .dataType (c% "QDIGEST") [(c% "dtype", t.obj)]
def Ty.objs : List Ty → List Obj
  | [] => []
  | t :: r => t.obj :: Ty.objs r
end

/-- The attribute `data_type` of a node: the type that its constructor computes.  (A tree whose construction
raises does not exist as an object.) -/
def typeAttr (r : Except Err Ty) : Str × Obj :=
  (c% "data_type", match r with
    | .ok t => t.obj
    | .error _ => .none)

/-! ## Tables -/

/-- `SchemaField`, treeno/relation.py 114-131. -/
def Col.obj (c : Col) : Obj :=
  .inst .schemaField [(c% "name", Obj.optStr c.name), (c% "source", .rel c.source), (c% "data_type", c.ty.obj)]

/-- `Table`, treeno/relation.py 544-577.  (The set `relation_ids` of its schema always holds the name and is
omitted.) -/
def TableRef.obj (t : TableRef) : Obj :=
  .inst .table [(c% "name", .str t.name), (c% "schema", Obj.optStr t.schema), (c% "catalog", Obj.optStr t.catalog),
    (c% "_column_schema", .inst .schema [(c% "fields", .list (t.cols.map Col.obj))])]

/-! ## Attributes of functions -/

/-- The names of the positional attributes of a function, treeno/functions/{conditional,math,datetime,string}.py (for FROM_UNIXTIME see `fnAttrs`, for CONCAT and COALESCE the single attribute is a list). -/
def Fn.attrNames : Fn → List Str
  | .concat | .coalesce => [c% "values"]
  | .now | .fromUnixtime => []
  | .if_ => [c% "condition", c% "true_value", c% "false_value"]
  | .nullif => [c% "value1", c% "value2"]
  | .try_ => [c% "expr"]
  | .power => [c% "x", c% "p"]
  | .atTimezone | .withTimezone => [c% "value", c% "zone"]
  | .dateTrunc => [c% "unit", c% "value"]
  | .dateAdd => [c% "unit", c% "value", c% "timestamp"]
  | .dateDiff => [c% "unit", c% "timestamp1", c% "timestamp2"]
  | .chr => [c% "number"]
  | .codepoint | .length | .lower | .ltrim | .luhnCheck | .reverse | .rtrim | .soundex | .toUtf8 => [c% "string"]
  | .hammingDistance | .levenshteinDistance => [c% "string1", c% "string2"]
  | .lpad | .rpad => [c% "string", c% "size", c% "pad_string"]
  | .replace => [c% "string", c% "search", c% "replace"]
  | .fromUtf8 => [c% "binary", c% "replace"]
  | _ => [c% "value"]

/-- The names of the positional attributes of an aggregate function, treeno/functions/aggregate.py 85-686. -/
def Agg.attrNames : Agg → List Str
  | .max | .min => [c% "value", c% "num_values"]
  | .maxBy => [c% "value", c% "max_by", c% "num_values"]
  | .minBy => [c% "value", c% "min_by", c% "num_values"]
  | .mapAgg | .multimapAgg => [c% "key", c% "value"]
  | .approxDistinct => [c% "key", c% "epsilon"]
  | .approxMostFrequent => [c% "buckets", c% "value", c% "capacity"]
  | .approxPercentile => [c% "value", c% "percentage", c% "weight"]
  | .numericHistogram => [c% "buckets", c% "value", c% "weight"]
  | .qdigestAgg => [c% "value", c% "weight", c% "accuracy"]
  | .tdigestAgg => [c% "value", c% "weight"]
  | .corr | .covarPop | .covarSamp | .kurtosis | .regrIntercept | .regrSlope => [c% "y", c% "x"]
  | _ => [c% "value"]

/-- Positional attributes; the ones that are not given are `None`.  (More arguments than attributes cannot be
given: then the constructor raises.) -/
def argAttrs : List Str → List Obj → List (Str × Obj)
  | [], [] => []
  | [], as => [([], .list as)]
  | n :: ns, [] => (n, .none) :: argAttrs ns []
  | n :: ns, a :: as => (n, a) :: argAttrs ns as

/-- The attributes of a function: FROM_UNIXTIME has a zone, or hours and minutes
(treeno/functions/datetime.py 172-215). -/
def fnAttrs (f : Fn) (as : List Obj) : List (Str × Obj) :=
  match f with
  | .concat | .coalesce => [(c% "values", .list as)]
  | .fromUnixtime => match as with
    | [v, h, m] => [(c% "value", v), (c% "zone", .none), (c% "hours", h), (c% "minutes", m)]
    | as => argAttrs [c% "value", c% "zone"] as ++ [(c% "hours", .none), (c% "minutes", .none)]
  | f => argAttrs f.attrNames as

/-! ## Enum members -/

/-- treeno/relation.py 783-788 -/
def JoinType.obj : JoinType → Obj
  | .inner => .enum (c% "JoinType") (c% "INNER")
  | .left => .enum (c% "JoinType") (c% "LEFT")
  | .right => .enum (c% "JoinType") (c% "RIGHT")
  | .outer => .enum (c% "JoinType") (c% "OUTER")
  | .cross => .enum (c% "JoinType") (c% "CROSS")

/-- treeno/relation.py 1042-1044 -/
def SampleType.obj : SampleType → Obj
  | .bernoulli => .enum (c% "SampleType") (c% "BERNOULLI")
  | .system => .enum (c% "SampleType") (c% "SYSTEM")

/-- treeno/window.py 30-37 -/
def FrameType.obj : FrameType → Obj
  | .range => .enum (c% "FrameType") (c% "RANGE")
  | .rows => .enum (c% "FrameType") (c% "ROWS")
  | .groups => .enum (c% "FrameType") (c% "GROUPS")

/-- treeno/window.py 40-42 -/
def BoundType.obj : BoundType → Obj
  | .preceding => .enum (c% "BoundType") (c% "PRECEDING")
  | .following => .enum (c% "BoundType") (c% "FOLLOWING")

/-- treeno/functions/string.py 19-23 -/
def NormalForm.obj : NormalForm → Obj
  | .nfd => .enum (c% "NormalForm") (c% "NFD")
  | .nfc => .enum (c% "NormalForm") (c% "NFC")
  | .nfkd => .enum (c% "NormalForm") (c% "NFKD")
  | .nfkc => .enum (c% "NormalForm") (c% "NFKC")

/-- An enum with two members. -/
def Obj.enum2 (cls yes no : Str) (b : Bool) : Obj := .enum cls (if b then yes else no)
/-- `SetQuantifier`, treeno/base.py 156-164. -/
def quantifier (distinct : Bool) : Obj := .enum2 (c% "SetQuantifier") (c% "DISTINCT") (c% "ALL") distinct

def Obj.optForm : Option NormalForm → Obj
  | some f => f.obj
  | Option.none => .none
/-- `Lambda.Variable`, treeno/expression.py 352-363. -/
def varObj (n : Str) : Obj := .inst .variable [typeAttr (.ok .unknown), (c% "name", .str n)]
/-- `OverflowFiller`, treeno/functions/aggregate.py 210-214. -/
def fillerObj : Option (Str × Bool) → Obj
  | some (f, c) => .inst .overflowFiller [(c% "count_indication", .enum2 (c% "CountIndication") (c% "WITH_COUNT") (c% "WITHOUT_COUNT") c), (c% "filler", .str f)]
  | Option.none => .none
def Obj.optScalar : Option Scalar → Obj
  | some s => .scalar s
  | Option.none => .none
/-- A list of names; `None` when empty. -/
def Obj.names (l : List Str) : Obj := .optList (l.map .str)

/-! ## Nodes -/

/-- `with_`: the empty dict, or a list. -/
def withObj : List Obj → Obj
  | [] => .dict []
  | x :: r => .list (x :: r)
/-- `window` of a `SelectQuery`: `None`, or a dict. -/
def windowObj : List (Str × Obj) → Obj
  | [] => .none
  | x :: r => .dict (x :: r)

mutual
/-- The object of a value, with the attributes of its class in treeno/expression.py and treeno/functions/*.py. -/
def Expr.obj : Expr → Obj
  | .lit v t => .inst .literal [(c% "data_type", t.obj), (c% "value", .optScalar v)]
  | .field n tn t => .inst .field [(c% "data_type", t.obj), (c% "name", .str n), (c% "table", .optStr tn)]
  | .fieldOf n b t => .inst .field [(c% "data_type", t.obj), (c% "name", .str n), (c% "table", b.obj)]
  | .alias v n => .inst .aliasedValue [typeAttr (Expr.check (.alias v n)), (c% "value", v.obj), (c% "alias", .str n)]
  | .star tn t => .inst .star [(c% "data_type", t.obj), (c% "table", .optStr tn)]
  | .starOf b t => .inst .star [(c% "data_type", t.obj), (c% "table", b.obj)]
  | .aliasedStar s as => .inst .aliasedStar [typeAttr (Expr.check (.aliasedStar s as)), (c% "star", s.obj), (c% "aliases", .list (as.map .str))]
  | .var n => varObj n
  | .lam ins b => .inst .lambda [typeAttr (Expr.check (.lam ins b)), (c% "inputs", .list (ins.map varObj)), (c% "expr", b.obj)]
  | .un op v => .inst (.un op) [typeAttr (Expr.check (.un op v)), (c% "value", v.obj)]
  | .bin op l r => .inst (.bin op) [typeAttr (Expr.check (.bin op l r)), (c% "left", l.obj), (c% "right", r.obj)]
  | .not v => .inst .not [typeAttr (Expr.check (.not v)), (c% "value", v.obj)]
  | .isNull v => .inst .isNull [typeAttr (Expr.check (.isNull v)), (c% "value", v.obj)]
  | .between v l u => .inst .between [typeAttr (Expr.check (.between v l u)), (c% "value", v.obj), (c% "lower", l.obj), (c% "upper", u.obj)]
  | .array vs => .inst .array [typeAttr (Expr.check (.array vs)), (c% "values", .list (Expr.objs vs))]
  | .inQuery v q => .inst .inQuery [typeAttr (Expr.check (.inQuery v q)), (c% "value", v.obj), (c% "query", q.obj)]
  | .inList v es => .inst .inList [typeAttr (Expr.check (.inList v es)), (c% "value", v.obj), (c% "exprs", .list (Expr.objs es))]
  | .like v p e => .inst .like [typeAttr (Expr.check (.like v p e)), (c% "value", v.obj), (c% "pattern", p.obj), (c% "escape", Expr.objOpt e)]
  | .typeCtor v t => .inst .typeConstructor [typeAttr (Expr.check (.typeCtor v t)), (c% "value", .str v), (c% "type_name", .str t)]
  | .row vs => .inst .rowConstructor [typeAttr (Expr.check (.row vs)), (c% "values", .list (Expr.objs vs))]
  | .interval v f t => .inst .interval [typeAttr (Expr.check (.interval v f t)), (c% "value", .str v), (c% "from_interval", .str f), (c% "to_interval", .optStr t)]
  | .cast tr e t => .inst (.cast tr) [(c% "data_type", t.obj), (c% "expr", e.obj)]
  | .subscript v i => .inst .subscript [typeAttr (Expr.check (.subscript v i)), (c% "value", v.obj), (c% "index", i.obj)]
  | .case v bs e => .inst .case [typeAttr (Expr.check (.case v bs e)), (c% "branches", .list (Expr.objWhens bs)), (c% "else_", Expr.objElse e), (c% "value", Expr.objOpt v)]
  | .func f as => .inst (.fn f) (typeAttr (Expr.check (.func f as)) :: fnAttrs f (Expr.objs as))
  | .agg f as ob fl w ign => .inst (.agg f) (typeAttr (Expr.check (.agg f as ob fl w ign)) :: (c% "orderby", .optList (Ord.objs ob)) ::
      (c% "filter_", Expr.objOpt fl) :: (c% "window", Win.objOpt w) ::
      (c% "null_treatment", .enum2 (c% "NullTreatment") (c% "IGNORE") (c% "RESPECT") ign) :: argAttrs f.attrNames (Expr.objs as))
  | .listagg v sep ov ob => .inst .listAgg [typeAttr (Expr.check (.listagg v sep ov ob)), (c% "orderby", .optList (Ord.objs ob)), (c% "filter_", .none), (c% "window", .none), (c% "null_treatment", .enum2 (c% "NullTreatment") (c% "IGNORE") (c% "RESPECT") false), (c% "value", v.obj), (c% "separator", .str sep), (c% "overflow_filler", fillerObj ov)]
  | .curTime f p => .inst (.curTime f) [typeAttr (Expr.check (.curTime f p)), (c% "precision", .int p)]
  | .session f => .inst (.session f) [typeAttr (Expr.check (.session f))]
  | .normalize v fo => .inst .normalize [typeAttr (Expr.check (.normalize v fo)), (c% "string", v.obj), (c% "normal_form", .optForm fo)]
  | .query q => q.obj
def Expr.objOpt : Option Expr → Obj
  | none => .none
  | some e => e.obj
def Expr.objs : List Expr → List Obj
  | [] => []
  | e :: r => e.obj :: Expr.objs r
/-- `GroupingSet`s of a `GroupingSetList`, treeno/groupby.py 35-74. -/
def Expr.objSets : List (List Expr) → List Obj
  | [] => []
  | g :: r => .inst .groupingSet [(c% "values", .list (Expr.objs g))] :: Expr.objSets r
/-- `When`, treeno/expression.py 980-983. -/
def Expr.objWhens : List (Expr × Expr) → List Obj
  | [] => []
  | (c, v) :: r => .inst .when [(c% "condition", c.obj), (c% "value", v.obj)] :: Expr.objWhens r
/-- `Else`, treeno/expression.py 996-998. -/
def Expr.objElse : Option Expr → Obj
  | none => .none
  | some e => .inst .else_ [(c% "value", e.obj)]
/-- `OrderTerm`, treeno/orderby.py 33-37. -/
def Ord.obj : Ord → Obj
  | .mk v d nf => .inst .orderTerm [(c% "value", v.obj), (c% "order_type", .enum2 (c% "OrderType") (c% "DESC") (c% "ASC") d),
      (c% "null_order", .enum2 (c% "NullOrder") (c% "FIRST") (c% "LAST") nf)]
def Ord.objs : List Ord → List Obj
  | [] => []
  | x :: r => x.obj :: Ord.objs r
/-- treeno/window.py 45-79. -/
def Bound.obj : Bound → Obj
  | .bounded t e => .inst .boundedFrameBound [(c% "bound_type", t.obj), (c% "offset", e.obj)]
  | .unbounded t => .inst .unboundedFrameBound [(c% "bound_type", t.obj)]
  | .current => .inst .currentFrameBound []
/-- `Window`, treeno/window.py 89-99. -/
def Win.obj : Win → Obj
  | .mk p ob ps f st en => .inst .window [(c% "parent_window", .optStr p), (c% "orderby", .optList (Ord.objs ob)),
      (c% "partitions", .optList (Expr.objs ps)), (c% "frame_type", f.obj), (c% "start_bound", st.obj), (c% "end_bound", en.obj)]
def Win.objOpt : Option Win → Obj
  | none => .none
  | some w => w.obj
def Win.objNamed : List (Str × Win) → List (Str × Obj)
  | [] => []
  | (n, w) :: r => (n, w.obj) :: Win.objNamed r
/-- treeno/groupby.py 35-108. -/
def Grp.obj : Grp → Obj
  | .set vs => .inst .groupingSet [(c% "values", .list (Expr.objs vs))]
  | .sets gs => .inst .groupingSetList [(c% "groups", .list (Expr.objSets gs))]
  | .cube vs => .inst .cube [(c% "values", .list (Expr.objs vs))]
  | .rollup vs => .inst .rollup [(c% "values", .list (Expr.objs vs))]
def Grp.objs : List Grp → List Obj
  | [] => []
  | g :: r => g.obj :: Grp.objs r
/-- `GroupBy`, treeno/groupby.py 15-20. -/
def GroupBy.obj : GroupBy → Obj
  | .mk gs d => .inst .groupBy [(c% "groups", .list (Grp.objs gs)), (c% "groupby_quantifier", quantifier d)]
def GroupBy.objOpt : Option GroupBy → Obj
  | none => .none
  | some g => g.obj
/-- `Query`, treeno/relation.py 184-195. -/
def Query.obj : Query → Obj
  | .mk b off lim ob w => .inst (QBody.cls b) (typeAttr (Query.check (.mk b off lim ob w)) :: (c% "offset", .optInt off) :: (c% "limit", .optInt lim) ::
      (c% "orderby", .optList (Ord.objs ob)) :: (c% "with_", withObj (Named.objs w)) :: QBody.attrs b)
/-- The class of a query. -/
def QBody.cls : QBody → Cls
  | .select _ _ _ _ _ _ _ => .selectQuery
  | .set k _ _ _ => .setQuery k
  | .table _ => .tableQuery
  | .values _ => .valuesQuery
/-- The attributes of the subclasses of `Query`, treeno/relation.py 256-277, 413-457, 611-623, 653-689. -/
def QBody.attrs : QBody → List (Str × Obj)
  | .select items fr wh gb hv d wins => [(c% "select", .list (Expr.objs items)), (c% "from_", Rel.objOpt fr), (c% "where", Expr.objOpt wh),
      (c% "groupby", GroupBy.objOpt gb), (c% "having", Expr.objOpt hv), (c% "select_quantifier", quantifier d),
      (c% "window", windowObj (Win.objNamed wins))]
  | .set _ l r d => [(c% "left_query", l.obj), (c% "right_query", r.obj), (c% "set_quantifier", quantifier d)]
  | .table t => [(c% "table", t.obj)]
  | .values es => [(c% "exprs", .list (Expr.objs es))]
/-- `AliasedRelation`, treeno/relation.py 718-744. -/
def Named.obj : Named → Obj
  | .mk r a cols => .inst .aliasedRelation [(c% "relation", r.obj), (c% "alias", .str a), (c% "column_aliases", .names cols)]
def Named.objs : List Named → List Obj
  | [] => []
  | n :: r => n.obj :: Named.objs r
/-- treeno/relation.py 877-1074. -/
def Rel.obj : Rel → Obj
  | .table t => t.obj
  | .query q => q.obj
  | .aliased n => n.obj
  | .join l r t nat cr => .inst .join [(c% "left_relation", l.obj), (c% "right_relation", r.obj),
      (c% "config", .inst .joinConfig [(c% "join_type", t.obj), (c% "natural", .bool nat), (c% "criteria", Crit.objOpt cr)])]
  | .unnest as ord => .inst .unnest [(c% "arrays", .list (Expr.objs as)), (c% "with_ordinality", .bool ord)]
  | .lateral q => .inst .lateral [(c% "subquery", q.obj)]
  | .sample r t p => .inst .tableSample [(c% "relation", r.obj), (c% "sample_type", t.obj), (c% "percentage", p.obj)]
def Rel.objOpt : Option Rel → Obj
  | none => .none
  | some r => r.obj
/-- treeno/relation.py 805-866. -/
def Crit.obj : Crit → Obj
  | .using cols => .inst .joinUsingCriteria [(c% "column_names", .list (cols.map .str))]
  | .on e => .inst .joinOnCriteria [(c% "constraint", e.obj)]
def Crit.objOpt : Option Crit → Obj
  | none => .none
  | some c => c.obj
end

/-- A node of any kind. -/
inductive Node
  | expr (e : Expr) | query (q : Query) | rel (r : Rel) | ord (o : Ord) | bound (b : Bound) | win (w : Win) | grp (g : Grp)
  | groupBy (g : GroupBy) | crit (c : Crit) | table (t : TableRef) | type (t : Ty)
  | when (c v : Expr) | else_ (e : Expr) | config (t : JoinType) (natural : Bool) (cr : Option Crit) | filler (f : Str) (count : Bool)

def Node.obj : Node → Obj
  | .expr e => e.obj
  | .query q => q.obj
  | .rel r => r.obj
  | .ord o => o.obj
  | .bound b => b.obj
  | .win w => w.obj
  | .grp g => g.obj
  | .groupBy g => g.obj
  | .crit c => c.obj
  | .table t => t.obj
  | .type t => t.obj
  | .when c v => .inst .when [(c% "condition", c.obj), (c% "value", v.obj)]
  | .else_ e => .inst .else_ [(c% "value", e.obj)]
  | .config t nat cr => .inst .joinConfig [(c% "join_type", t.obj), (c% "natural", .bool nat), (c% "criteria", Crit.objOpt cr)]
  | .filler f c => fillerObj (some (f, c))

/-- `node.equals(other)`, treeno/base.py 129-146. -/
def Node.equals (a b : Node) : Bool := a.obj.equals b.obj

end Treeno
