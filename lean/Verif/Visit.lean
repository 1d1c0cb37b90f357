import Verif.Object
/-!
# `visit`

Every class has a method `visit(self, visitor)` that hands nodes to `visitor.visit`.  The methods are short programs
in a small language (`Step`); `Cls.visits` lists them and `Obj.visit` runs them on an object and returns what the
visitor is handed, in order.  What the visitor does with a node is not part of it.
-/
namespace Treeno

/-- A statement of a `visit` method. -/
inductive Step
  /-- `visitor.visit(self.a)` -/
  | one (a : Str)
  /-- `if self.a: visitor.visit(self.a)` -/
  | ifSet (a : Str)
  /-- `if self.a is not None and isinstance(self.a, Value): visitor.visit(self.a)` -/
  | ifValue (a : Str)
  /-- `for x in self.a: visitor.visit(x)` -/
  | each (a : Str)
  /-- `if self.a: for x in self.a: visitor.visit(x)` -/
  | eachIfSet (a : Str)
  /-- `if self.a: for x in self.a.values(): visitor.visit(x)` -/
  | valuesIfSet (a : Str)
  deriving DecidableEq, Repr

/-- `bool(x)`.  No class of treeno defines `__bool__` or `__len__`, so instances are true. -/
def Obj.truthy : Obj → Bool
  | .none => false
  | .scalar (.bool b) => b
  | .scalar (.int n) => n != 0
  | .scalar (.dec d) => d.coeff != 0
  | .scalar (.str s) => !s.isEmpty
  | .scalar (.float _) => true
  | .list l => !l.isEmpty
  | .dict d => !d.isEmpty
  | .enum _ _ | .rel _ | .inst _ _ => true

/-- The subclasses of `Value`. -/
def Cls.isValue : Cls → Bool
  | .overflowFiller | .when | .else_ | .orderTerm | .boundedFrameBound | .unboundedFrameBound | .currentFrameBound
  | .window | .groupingSet | .groupingSetList | .cube | .rollup | .groupBy | .table | .aliasedRelation | .join
  | .joinConfig | .joinUsingCriteria | .joinOnCriteria | .unnest | .lateral | .tableSample | .dataType | .schema
  | .schemaField => false
  | _ => true

def Obj.isValue : Obj → Bool
  | .inst c _ => c.isValue
  | _ => false

/-- `self.a` -/
def Obj.attr (self : Obj) (a : Str) : Except Err Obj :=
  match self with
  | .inst _ as => (match dget a as with
    | some v => .ok v
    | Option.none => .error .attributeError)
  | _ => .error .attributeError

/-- `for x in v` -/
def Obj.items : Obj → Except Err (List Obj)
  | .list l => .ok l
  | .dict d => .ok (d.map fun kv => .str kv.1)
  | _ => .error .typeError

/-- `v.values()` -/
def Obj.values : Obj → Except Err (List Obj)
  | .dict d => .ok (d.map (·.2))
  | _ => .error .attributeError

def Obj.ifSet (v : Obj) : List Obj := if v.truthy then [v] else []
def Obj.ifValue (v : Obj) : List Obj := if v.isValue then [v] else []
def Obj.itemsIfSet (v : Obj) : Except Err (List Obj) := if v.truthy then v.items else .ok []
def Obj.valuesIfSet (v : Obj) : Except Err (List Obj) := if v.truthy then v.values else .ok []

def Step.run (self : Obj) : Step → Except Err (List Obj)
  | .one a => do
    let v ← self.attr a
    .ok [v]
  | .ifSet a => do
    let v ← self.attr a
    .ok v.ifSet
  | .ifValue a => do
    let v ← self.attr a
    .ok v.ifValue
  | .each a => do
    let v ← self.attr a
    v.items
  | .eachIfSet a => do
    let v ← self.attr a
    v.itemsIfSet
  | .valuesIfSet a => do
    let v ← self.attr a
    v.valuesIfSet

def Step.runs (self : Obj) : List Step → Except Err (List Obj)
  | [] => .ok []
  | s :: r => do
    let a ← s.run self
    let b ← Step.runs self r
    .ok (a ++ b)

/-- The `visit` methods of the functions, treeno/functions/{base,common,conditional,datetime,math,string}.py. -/
def Fn.visits : Fn → List Step
  -- common.py 102-104, conditional.py 66-68
  | .concat | .coalesce => [.each (c% "values")]
  -- conditional.py 36-40
  | .if_ => [.one (c% "condition"), .one (c% "true_value"), .ifSet (c% "false_value")]
  -- conditional.py 83-85
  | .nullif => [.one (c% "value1"), .one (c% "value2")]
  -- conditional.py 99-100
  | .try_ => [.one (c% "expr")]
  -- math.py 23-25
  | .power => [.one (c% "x"), .one (c% "p")]
  -- datetime.py 145-147, 166-168
  | .atTimezone | .withTimezone => [.one (c% "value"), .one (c% "zone")]
  -- datetime.py 221-230
  | .fromUnixtime => [.one (c% "value"), .ifSet (c% "zone"), .ifSet (c% "hours"), .ifSet (c% "minutes")]
  -- datetime.py 251-252
  | .now => []
  -- datetime.py 291-293
  | .dateTrunc => [.one (c% "unit"), .one (c% "value")]
  -- datetime.py 309-312
  | .dateAdd => [.one (c% "unit"), .one (c% "value"), .one (c% "timestamp")]
  -- datetime.py 330-333
  | .dateDiff => [.one (c% "unit"), .one (c% "timestamp1"), .one (c% "timestamp2")]
  -- string.py 37-38
  | .chr => [.one (c% "number")]
  -- string.py 52-53, 84-85, 116-117, 150-151, 165-166, 205-206, 239-240, 254-255, 292-293
  | .codepoint | .length | .lower | .ltrim | .luhnCheck | .reverse | .rtrim | .soundex | .toUtf8 => [.one (c% "string")]
  -- string.py 68-70, 100-102
  | .hammingDistance | .levenshteinDistance => [.one (c% "string1"), .one (c% "string2")]
  -- string.py 133-136, 222-225
  | .lpad | .rpad => [.one (c% "string"), .one (c% "size"), .one (c% "pad_string")]
  -- string.py 187-191
  | .replace => [.one (c% "string"), .one (c% "search"), .ifSet (c% "replace")]
  -- string.py 313-316
  | .fromUtf8 => [.one (c% "binary"), .ifSet (c% "replace")]
  -- `UnaryFunction`, base.py 70-71
  | .date | .lastDayOfMonth | .fromIso8601Timestamp | .fromIso8601TimestampNanos | .fromIso8601Date | .fromUnixtimeNanos
  | .toIso8601 | .toMilliseconds | .toUnixtime | .parseDuration | .humanReadableSeconds => [.one (c% "value")]

/-- The `visit` methods of the aggregate functions, treeno/functions/aggregate.py.  `QDigestAgg` names an attribute
that it does not have. -/
def Agg.visits : Agg → List Step
  -- 287-290, 335-338
  | .max | .min => [.one (c% "value"), .ifSet (c% "num_values")]
  -- 311-315
  | .maxBy => [.one (c% "value"), .one (c% "max_by"), .ifSet (c% "num_values")]
  -- 359-363
  | .minBy => [.one (c% "value"), .one (c% "min_by"), .ifSet (c% "num_values")]
  -- 406-408, 434-436
  | .mapAgg | .multimapAgg => [.one (c% "key"), .one (c% "value")]
  -- 456-459
  | .approxDistinct => [.one (c% "key"), .ifSet (c% "epsilon")]
  -- 477-480
  | .approxMostFrequent => [.one (c% "buckets"), .one (c% "value"), .one (c% "capacity")]
  -- 515-519
  | .approxPercentile => [.one (c% "value"), .one (c% "percentage"), .ifSet (c% "weight")]
  -- 562-566
  | .numericHistogram => [.one (c% "buckets"), .one (c% "value"), .ifSet (c% "weight")]
  -- 591-596
  | .qdigestAgg => [.one (c% "buckets"), .ifSet (c% "weight"), .ifSet (c% "accuracy")]
  -- 616-619
  | .tdigestAgg => [.one (c% "value"), .ifSet (c% "weight")]
  -- `BinaryStatsFunction`, 106-108
  | .corr | .covarPop | .covarSamp | .kurtosis | .regrIntercept | .regrSlope => [.one (c% "x"), .one (c% "y")]
  -- `UnaryAggregateFunction`, 91-92
  | .sum | .arbitrary | .arrayAgg | .avg | .boolAnd | .boolOr | .checksum | .count | .countIf | .every | .geometricMean
  | .bitwiseAndAgg | .bitwiseOrAgg | .histogram | .mapUnion | .approxSet | .merge | .skewness | .stddev | .stddevPop
  | .stddevSamp | .variance | .varPop | .varSamp => [.one (c% "value")]

/-- The `visit` methods of all classes. -/
def Cls.visits : Cls → List Step
  -- treeno/expression.py 228-231, 361-363, 886-887, 930-931
  | .literal | .variable | .typeConstructor | .interval => []
  -- treeno/expression.py 264-266, 322-324
  | .field | .star => [.ifValue (c% "table")]
  -- treeno/expression.py 290-291
  | .aliasedValue => [.one (c% "value")]
  -- treeno/expression.py 341-342
  | .aliasedStar => [.one (c% "star")]
  -- treeno/expression.py 408-411
  | .lambda => [.each (c% "inputs"), .one (c% "expr")]
  -- treeno/expression.py 483-484
  | .un _ | .not | .isNull => [.one (c% "value")]
  -- treeno/expression.py 474-476
  | .bin _ => [.one (c% "left"), .one (c% "right")]
  -- treeno/expression.py 749-752
  | .between => [.one (c% "value"), .one (c% "lower"), .one (c% "upper")]
  -- treeno/expression.py 773-775, 903-905
  | .array | .rowConstructor => [.each (c% "values")]
  -- treeno/expression.py 796-798
  | .inQuery => [.one (c% "value"), .one (c% "query")]
  -- treeno/expression.py 820-823
  | .inList => [.one (c% "value"), .each (c% "exprs")]
  -- treeno/expression.py 850-854
  | .like => [.one (c% "value"), .one (c% "pattern"), .ifSet (c% "escape")]
  -- treeno/expression.py 946-947, 962-963
  | .cast _ => [.one (c% "expr")]
  -- treeno/expression.py 974-976
  | .subscript => [.one (c% "value"), .one (c% "index")]
  -- treeno/expression.py 1036-1042
  | .case => [.each (c% "branches"), .ifSet (c% "else_"), .ifSet (c% "value")]
  -- treeno/expression.py 991-993
  | .when => [.one (c% "condition"), .one (c% "value")]
  -- treeno/expression.py 1006-1007
  | .else_ => [.one (c% "value")]
  | .fn f => f.visits
  | .agg f => f.visits
  -- treeno/functions/aggregate.py 264-267
  | .listAgg => [.one (c% "value"), .ifSet (c% "overflow_filler")]
  -- treeno/functions/aggregate.py 219-220
  | .overflowFiller => []
  -- treeno/functions/datetime.py 36-37, 52-53; treeno/functions/session.py 19-62
  | .curTime _ | .session _ => []
  -- treeno/functions/string.py 277-278
  | .normalize => [.one (c% "string")]
  -- treeno/orderby.py 47-48
  | .orderTerm => [.one (c% "value")]
  -- treeno/window.py 57-58
  | .boundedFrameBound => [.one (c% "offset")]
  -- treeno/window.py 68-69, 77-78
  | .unboundedFrameBound | .currentFrameBound => []
  -- treeno/window.py 129-139
  | .window => [.eachIfSet (c% "orderby"), .eachIfSet (c% "partitions"), .ifSet (c% "start_bound"), .ifSet (c% "end_bound")]
  -- treeno/groupby.py 50-52, 96-98, 118-120
  | .groupingSet | .cube | .rollup => [.each (c% "values")]
  -- treeno/groupby.py 30-32, 72-74
  | .groupingSetList | .groupBy => [.each (c% "groups")]
  -- treeno/relation.py 529-541
  | .selectQuery => [.one (c% "select"), .ifSet (c% "from_"), .ifSet (c% "where"), .ifSet (c% "groupby"), .ifSet (c% "having"),
      .valuesIfSet (c% "window")]
  -- treeno/relation.py 339-341
  | .setQuery _ => [.one (c% "left_query"), .one (c% "right_query")]
  -- treeno/relation.py 648-649
  | .tableQuery => [.one (c% "table")]
  -- treeno/relation.py 713-715
  | .valuesQuery => [.each (c% "exprs")]
  -- treeno/relation.py 605-607
  | .table => []
  -- treeno/relation.py 779-780
  | .aliasedRelation => [.one (c% "relation")]
  -- treeno/relation.py 952-955
  | .join => [.one (c% "left_relation"), .one (c% "right_relation"), .one (c% "config")]
  -- treeno/relation.py 907-908
  | .joinConfig => [.one (c% "criteria")]
  -- treeno/relation.py 842-844
  | .joinUsingCriteria => []
  -- treeno/relation.py 873-874
  | .joinOnCriteria => [.one (c% "constraint")]
  -- treeno/relation.py 1016-1018
  | .unnest => [.each (c% "arrays")]
  -- treeno/relation.py 1038-1039
  | .lateral => [.one (c% "subquery")]
  -- treeno/relation.py 1090-1092
  | .tableSample => [.one (c% "relation"), .one (c% "percentage")]
  -- treeno/datatypes/types.py 139-141
  | .dataType => []
  -- not `Sql` nodes
  | .schema | .schemaField => []

/-- What `node.visit(visitor)` hands to the visitor, in order. -/
def Obj.visit : Obj → Except Err (List Obj)
  | .inst c as => Step.runs (.inst c as) c.visits
  | _ => .error .attributeError

/-- What the base class `TreenoVisitor` has a method for, treeno/visitor.py 180-658: every class of nodes except
`Lambda.Variable`. -/
def Cls.dispatched : Cls → Bool
  | .variable | .schema | .schemaField => false
  | _ => true

/-- `TreenoVisitor().visit(node)`, treeno/visitor.py 181-182: looks the method up by the name of the class, and the
method does nothing. -/
def Obj.dispatch : Obj → Except Err Unit
  | .inst c _ => if c.dispatched then .ok () else .error .attributeError
  | _ => .error .attributeError

/-- A visitor that counts a node and goes on with `node.visit(self)`: the nodes it meets, in order.  The fuel bounds
the depth. -/
def Obj.collect : Nat → Obj → Except Err (List Obj)
  | 0, _ => .error .unmodelled
  | n + 1, o => do
    let l ← o.visit
    let r ← l.mapM (Obj.collect n)
    .ok (o :: r.flatten)

end Treeno
