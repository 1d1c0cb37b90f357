import Verif.Sql
import Verif.Conversions
/-!
# Constructing nodes: the `__attrs_post_init__` methods

`Expr.check e` builds the tree `e` bottom-up: it raises where one of the constructor calls raises and
otherwise returns `e.data_type`.

Simplifications: the arguments of functions and operators are already `Value`s (`wrap_literal` is
modelled separately); optional function arguments are given positionally, in attribute order.
-/
namespace Treeno

/-- `boolean()`, `bigint()` and `double()`, treeno/datatypes/builder.py 14-15, 30-31, 38-39. -/
abbrev Ty.boolean : Ty := .simple .boolean
abbrev Ty.bigint : Ty := .simple .bigint
abbrev Ty.double : Ty := .simple .double

/-- `interval(from_interval="DAY", to_interval="SECOND")`, treeno/datatypes/builder.py 74-75. -/
abbrev Ty.dayToSecond : Ty := .interval .dayToSecond

/-- `functools.reduce` without a start value: `TypeError` on the empty list. -/
def reduceTy (f : Ty → Ty → Except Err Ty) : List Ty → Except Err Ty
  | [] => .error .typeError
  | t :: ts => ts.foldlM f t

/-- `_num_array_layers`, treeno/functions/common.py 26-29. -/
def Ty.layers : Ty → Nat
  | .array t => t.layers + 1
  | _ => 0

/-- `max(num_layers)` and `min(num_layers)`. -/
def maxNat : List Nat → Nat
  | [] => 0
  | a :: as => max a (maxNat as)
def minNat : List Nat → Nat
  | [] => 0
  | [a] => a
  | a :: as => min a (minNat as)

/-- One line of `stripped_dtypes`, treeno/functions/common.py 48-51. -/
def stripLayer (m : Nat) (t : Ty) : Ty :=
  if t.layers = m then (match t with
    | .array d => d
    | t => t)
  else t

/-- `_get_array_concat_type`, treeno/functions/common.py 32-54. -/
def arrayConcatType (ts : List Ty) : Except Err Ty :=
  let m := maxNat (ts.map Ty.layers)
  if m - minNat (ts.map Ty.layers) ≤ 1 then do
    .ok (.array (← reduceTy commonSupertype (ts.map (stripLayer m))))
  else .error .assertion

/-- The loop of `_get_string_concat_type`, treeno/functions/common.py 68-73. -/
def charSum : List Ty → Except Err Int
  | [] => .ok 0
  | t :: ts => do
    let t' ← if t.isChar then .ok t else promoteVarcharToChar t
    let n ← match t' with
      | .char n => .ok n
      | _ => .error .keyError
    .ok (n + (← charSum ts))

/-- `_get_string_concat_type`, treeno/functions/common.py 57-71. -/
def stringConcatType (ts : List Ty) : Except Err Ty :=
  if ts.any Ty.isChar then do mkType (c% "CHAR") [(c% "max_chars", .int (← charSum ts))]
  else .ok (.varchar none)

def Ty.isArray : Ty → Bool
  | .array _ => true
  | _ => false

/-- `Concatenate.__attrs_post_init__`, treeno/functions/common.py 79-90. -/
def concatType (ts : List Ty) : Except Err Ty :=
  if ts.contains .unknown then .ok .unknown
  else if ts.any Ty.isArray then arrayConcatType ts
  else if ts.all Ty.isString then stringConcatType ts
  else if ts.all (· = .simple .varbinary) then .ok (.simple .varbinary)
  else .ok .unknown

/-- `AtTimezone`, `WithTimezone`, `FromUnixtime`: treeno/functions/datetime.py 134-140,
156-161, 196-210. -/
def zonedType : Ty → Except Err Ty
  | .timestamp (some p) _ => mkType (c% "TIMESTAMP") [(c% "precision", .int p), (c% "timezone", .bool true)]
  | .timestamp none _ => .error .keyError
  | _ => .ok .unknown

/-- `Coalesce.__attrs_post_init__`, treeno/functions/conditional.py 48-54. -/
def coalesceType (ts : List Ty) : Except Err Ty := reduceTy commonSupertype (ts.filter (· ≠ .unknown))

/-- The smallest and largest number of positional arguments of a function constructor; `none` when
unbounded.  FROM_UNIXTIME has 2 (zone) or 3 (hours and minutes) after `from_args`; its constructor
also allows none of them. -/
def Fn.arity : Fn → Nat × Option Nat
  | .concat | .coalesce => (0, none)
  | .now => (0, some 0)
  | .if_ => (2, some 3)
  | .fromUnixtime => (1, some 3)
  | .nullif | .power | .atTimezone | .withTimezone | .dateTrunc | .hammingDistance
  | .levenshteinDistance => (2, some 2)
  | .dateAdd | .dateDiff | .lpad | .rpad => (3, some 3)
  | .replace => (2, some 3)
  | .fromUtf8 => (1, some 2)
  | _ => (1, some 1)

def arityOk (a : Nat × Option Nat) (n : Nat) : Bool :=
  a.1 ≤ n && (match a.2 with
    | some m => n ≤ m
    | none => true)

/-- `data_type` of a function from the types of its arguments: the `__attrs_post_init__` methods of
treeno/functions/common.py 79-90, treeno/functions/conditional.py 22-28, 48-54, 77-78, 93-94,
treeno/functions/math.py 17-18, treeno/functions/datetime.py 92-349 and treeno/functions/string.py
31-305. -/
def fnType (f : Fn) (ts : List Ty) : Except Err Ty :=
  if arityOk f.arity ts.length then
    match f, ts with
    | .concat, ts => concatType ts
    | .coalesce, ts => coalesceType ts
    | .if_, [_, t] => .ok t
    | .if_, [_, t, e] => commonSupertype t e
    | .nullif, t :: _ => .ok t
    | .try_, t :: _ => .ok t
    | .power, _ => .ok .double
    | .date, _ | .lastDayOfMonth, _ | .fromIso8601Date, _ => .ok (.simple .date)
    | .fromIso8601Timestamp, _ | .now, _ => .ok (.timestamp (some 3) true)
    | .fromIso8601TimestampNanos, _ | .fromUnixtimeNanos, _ => .ok (.timestamp (some 9) true)
    | .atTimezone, t :: _ | .withTimezone, t :: _ | .fromUnixtime, t :: _ => zonedType t
    | .toIso8601, _ | .humanReadableSeconds, _ | .chr, _ | .lower, _ | .lpad, _ | .ltrim, _
    | .replace, _ | .reverse, _ | .rpad, _ | .rtrim, _ | .soundex, _ | .fromUtf8, _ =>
      .ok (.varchar none)
    | .toMilliseconds, _ | .dateDiff, _ | .hammingDistance, _ | .levenshteinDistance, _
    | .length, _ => .ok .bigint
    | .toUnixtime, _ => .ok .double
    | .dateTrunc, [_, t] => .ok t
    | .dateAdd, [_, _, t] => .ok t
    | .parseDuration, _ => .ok .dayToSecond
    | .codepoint, _ => .ok (.simple .integer)
    | .luhnCheck, _ => .ok .boolean
    | .toUtf8, _ => .ok (.simple .varbinary)
    | _, _ => .error .typeError
  else .error .typeError

/-- The smallest and largest number of positional arguments of an aggregate constructor. -/
def Agg.arity : Agg → Nat × Option Nat
  | .max | .min | .approxDistinct | .tdigestAgg => (1, some 2)
  | .maxBy | .minBy | .approxPercentile | .numericHistogram => (2, some 3)
  | .mapAgg | .multimapAgg | .corr | .covarPop | .covarSamp | .kurtosis | .regrIntercept
  | .regrSlope => (2, some 2)
  | .approxMostFrequent => (3, some 3)
  | .qdigestAgg => (1, some 3)
  | _ => (1, some 1)

/-- `data_type` of an aggregate from the types of its arguments: the `__attrs_post_init__` methods of
treeno/functions/aggregate.py 95-96 and 112-687. -/
def aggType (f : Agg) (ts : List Ty) : Except Err Ty :=
  if arityOk f.arity ts.length then
    match f, ts with
    | .sum, t :: _ | .arbitrary, t :: _ | .max, t :: _ | .maxBy, t :: _ | .min, t :: _
    | .minBy, t :: _ | .mapUnion, t :: _ => .ok t
    | .arrayAgg, t :: _ => .ok (.array t)
    | .avg, _ | .geometricMean, _ | .corr, _ | .covarPop, _ | .covarSamp, _ | .kurtosis, _
    | .regrIntercept, _ | .regrSlope, _ => .ok .double
    | .boolAnd, _ | .boolOr, _ | .every, _ => .ok .boolean
    | .checksum, _ => .ok (.simple .varbinary)
    | .count, _ | .countIf, _ | .bitwiseAndAgg, _ | .bitwiseOrAgg, _ | .approxDistinct, _ =>
      .ok .bigint
    | .histogram, t :: _ => .ok (.map t .bigint)
    | .mapAgg, [k, v] => .ok (.map k v)
    | .multimapAgg, [k, v] => .ok (.map k (.array v))
    | .approxMostFrequent, [_, v, _] => .ok (.map v .bigint)
    | .approxPercentile, v :: p :: _ =>
      if p.isArray then .ok (.array v) else if p ≠ .unknown then .ok v else .ok .unknown
    | .approxSet, _ => .ok (.simple .hyperloglog)
    | .merge, t :: _ => (match t with
      | .simple .tdigest | .qdigest _ => .ok t
      | _ => .ok (.simple .hyperloglog))
    | .numericHistogram, _ => .ok (.map .double .double)
    | .qdigestAgg, t :: _ => .ok (.qdigest t)
    | .tdigestAgg, _ => .ok (.simple .tdigest)
    | .skewness, _ | .stddev, _ | .stddevPop, _ | .stddevSamp, _ | .variance, _ | .varPop, _
    | .varSamp, _ => .ok .unknown
    | _, _ => .error .typeError
  else .error .typeError

/-- The operand types `Minus` treats as datetimes, treeno/expression.py 541-547. -/
def Ty.isInstant : Ty → Bool
  | .timestamp _ _ | .simple .date => true
  | _ => false
def Ty.isTime : Ty → Bool
  | .time _ _ => true
  | _ => false

/-- `data_type` of a binary operator, treeno/expression.py 524-727. -/
def binType (op : BinOp) (l r : Ty) : Except Err Ty :=
  match op with
  | .add | .mul | .div | .mod => arithmeticType l r
  | .sub => do
    let t ← arithmeticType l r
    if (l.isInstant && r.isInstant) || (l.isTime && r.isTime) then .ok .dayToSecond else .ok t
  | _ => .ok .boolean

/-- `Decimal(text)` for plain decimal text `[sign] digits [. digits]`; other texts accepted by
`decimal.Decimal` are not modelled. -/
def decOfPlain (s : Str) : Option Dec :=
  let (neg, u) := match s with
    | '-' :: u => (true, u)
    | '+' :: u => (false, u)
    | u => (false, u)
  let i := u.takeWhile isDigit
  let r := u.dropWhile isDigit
  match r with
  | [] => if i.isEmpty then none else some ⟨neg, digitsVal i, 0⟩
  | '.' :: f =>
    if f.all isDigit && !(i.isEmpty && f.isEmpty) then some ⟨neg, digitsVal (i ++ f), -(f.length : Int)⟩
    else none
  | _ => none

/-- `TypeConstructor.__attrs_post_init__`, treeno/expression.py 862-877: the TIMESTAMP type computed
first is overwritten in the final `else`. -/
def typeCtorType (value typeName : Str) : Except Err Ty :=
  if typeName = c% "TIME" then
    mkType (c% "TIME") [(c% "precision", .int (inferTimelikePrecision value))]
  else if typeName = c% "DECIMAL" then (match decOfPlain value with
    | some d => inferDecimal d
    | none => .error .unmodelled)
  else if typeName = c% "CHAR" then inferChar value
  else do
    if typeName = c% "TIMESTAMP" then
      let _ ← mkType (c% "TIMESTAMP") [(c% "precision", .int (inferTimelikePrecision value))]
    mkType typeName []

/-- `Interval.__attrs_post_init__`, treeno/expression.py 914-924. -/
def intervalType (fromI : Str) : Except Err Ty :=
  if fromI ∈ [c% "YEAR", c% "MONTH"] then .ok (.interval .yearToMonth)
  else if fromI ∈ [c% "DAY", c% "HOUR", c% "MINUTE", c% "SECOND"] then .ok .dayToSecond
  else .error .assertion

/-- `data_type` of the current-time functions, treeno/functions/datetime.py 56-86. -/
def curTimeType (f : CurFn) (p : Int) : Except Err Ty :=
  match f with
  | .currentTime | .localTime => mkType (c% "TIME") [(c% "precision", .int p)]
  | .currentTimestamp | .localTimestamp => mkType (c% "TIMESTAMP") [(c% "precision", .int p)]

def SessFn.type : SessFn → Ty
  | .currentDate => .simple .date
  | _ => .varchar none

/-- `SetQuery._compute_data_type`, treeno/relation.py 282-309. -/
def setType (l r : Ty) : Except Err Ty :=
  if l = .unknown ∨ r = .unknown then .ok .unknown
  else match l, r with
    | .row ls, .row rs => do .ok (.row (← commonRow ls rs))
    | .row _, _ | _, .row _ => .error .assertion
    | l, r => commonSupertype l r

/-- `ValuesQuery.__attrs_post_init__`, treeno/relation.py 691-696. -/
def valuesType (acc : Ty) : List Ty → Except Err Ty
  | [] => .ok acc
  | t :: ts => do
    let a ← if acc = .unknown then .ok t else commonSupertype acc t
    valuesType a ts

/-- `SelectQuery._compute_data_type`, treeno/relation.py 465-469. -/
def selectType : List Ty → Ty
  | [t] => t
  | ts => .row ts

/-- `Array.__attrs_post_init__`, treeno/expression.py 759-763. -/
def arrayType : List Ty → Except Err Ty
  | [] => .error .assertion
  | t :: _ => .ok (.array t)

/-- `Case.__attrs_post_init__`, treeno/expression.py 1018-1022. -/
def firstType : List Ty → Except Err Ty
  | [] => .error .assertion
  | t :: _ => .ok t

/-- The types of the set operations, treeno/relation.py 279-280, 361-364, 387-390: `IntersectQuery` and
`ExceptQuery` replace the constructor of `SetQuery`. -/
def setQueryType (k : SetKind) (distinct : Bool) (a b : Ty) : Except Err Ty :=
  match k with
  | .union => setType a b
  | _ => if distinct then .ok .unknown else .error .assertion

/-- `Unnest._compute_data_type`, treeno/relation.py 983-990. -/
def elemType : Ty → Ty
  | .array t => t
  | _ => .unknown

/-- `isinstance(e, Field)`, `isinstance(e, Star)` -/
def Expr.isField : Expr → Bool
  | .field _ _ _ | .fieldOf _ _ _ => true
  | _ => false
def Expr.isStar : Expr → Bool
  | .star _ _ | .starOf _ _ => true
  | _ => false

/-- `Table.__attrs_post_init__`, treeno/relation.py 576-582. -/
def TableRef.check (t : TableRef) : Except Err Unit :=
  match truthy t.catalog, truthy t.schema with
  | some _, none => .error .assertion
  | _, _ => .ok ()

/-- `table_from_qualifiers`, treeno/builder/convert.py 155-161. -/
def tableFromQualifiers (parts : List Str) : Except Err TableRef :=
  match parts.reverse with
  | [] => .error .indexError
  | name :: rest =>
    let t : TableRef := { name := name, schema := rest[0]?, catalog := rest[1]? }
    do
      t.check
      .ok t

/-- `JoinConfig.__attrs_post_init__`, treeno/relation.py 893-901. -/
def joinConfigOk (type : JoinType) (natural crit : Bool) : Bool :=
  !(type == .cross && crit) && !(crit && natural)

/-- `Count.__attrs_post_init__`, treeno/functions/aggregate.py 169-175. -/
def countStarBad (f : Agg) (as : List Expr) (ob : List Ord) (ign : Bool) : Bool :=
  f == .count && as.any Expr.isStar && (!ob.isEmpty || ign)

mutual
/-- See the header. -/
def Expr.check : Expr → Except Err Ty
  -- `Literal.__attrs_post_init__`, treeno/expression.py 209-213
  | .lit v t => if v.isSome = true ∧ t = .unknown then .error .assertion else .ok t
  -- `Field.__attrs_post_init__`, treeno/expression.py 247-250
  | .field _ _ t => .ok t
  | .fieldOf _ b t => do
    let _ ← b.check
    if b.isField then .error .assertion else .ok t
  -- `AliasedValue.__attrs_post_init__`, treeno/expression.py 278-282
  | .alias v _ => do
    let t ← v.check
    if v.isStar then .error .assertion else .ok t
  -- `Star.__attrs_post_init__`, treeno/expression.py 306-309
  | .star _ t => .ok t
  | .starOf b t => do
    let _ ← b.check
    if b.isField then .error .assertion else .ok t
  -- `AliasedStar.__attrs_post_init__`, treeno/expression.py 334-335
  | .aliasedStar s _ => s.check
  | .var _ => .ok .unknown
  -- `Lambda.__attrs_post_init__`, treeno/expression.py 368-369
  | .lam ins b => do
    let _ ← b.check
    if ins.Nodup then .ok .unknown else .error .assertion
  | .un _ v => v.check
  | .bin op l r => do
    let a ← l.check
    let b ← r.check
    binType op a b
  -- `Not.__attrs_post_init__`, treeno/expression.py 577-578
  | .not v => do
    let _ ← v.check
    .ok .boolean
  -- `IsNull.__attrs_post_init__`, treeno/expression.py 700-701
  | .isNull v => do
    let _ ← v.check
    .ok .boolean
  -- `Between.__attrs_post_init__`, treeno/expression.py 736-737
  | .between v l u => do
    let _ ← v.check
    let _ ← l.check
    let _ ← u.check
    .ok .boolean
  -- `Array.__attrs_post_init__`, treeno/expression.py 759-763
  | .array vs => do
    let ts ← Expr.checks vs
    arrayType ts
  -- `InQuery.__attrs_post_init__`, treeno/expression.py 783-784
  | .inQuery v q => do
    let _ ← v.check
    let _ ← q.check
    .ok .boolean
  -- `InList.__attrs_post_init__`, treeno/expression.py 806-807
  | .inList v es => do
    let _ ← v.check
    let _ ← Expr.checks es
    .ok .boolean
  -- `Like.__attrs_post_init__`, treeno/expression.py 834-835
  | .like v p e => do
    let _ ← v.check
    let _ ← p.check
    Expr.checkOpt e
    .ok .boolean
  | .typeCtor v t => typeCtorType v t
  -- `RowConstructor.__attrs_post_init__`, treeno/expression.py 894-895
  | .row vs => do .ok (.row (← Expr.checks vs))
  | .interval _ f _ => intervalType f
  -- `Cast.__attrs_post_init__`, `TryCast.__attrs_post_init__`,
  -- treeno/expression.py 938-941, 954-957
  | .cast _ e t => do
    let _ ← e.check
    if t = .unknown then .error .assertion else .ok t
  | .subscript v i => do
    let _ ← v.check
    let _ ← i.check
    .ok .unknown
  -- `Case.__attrs_post_init__`, `When.__attrs_post_init__`, `Else.__attrs_post_init__`,
  -- treeno/expression.py 1018-1022, 985-986, 1000-1001
  | .case v bs e => do
    Expr.checkOpt v
    let ts ← Expr.checkWhens bs
    Expr.checkOpt e
    firstType ts
  | .func f as => do
    let ts ← Expr.checks as
    fnType f ts
  | .agg f as ob fl w ign => do
    let ts ← Expr.checks as
    Ord.checks ob
    Expr.checkOpt fl
    Win.checkOpt w
    if countStarBad f as ob ign then .error .assertion else aggType f ts
  | .listagg v _ _ ob => do
    let _ ← v.check
    Ord.checks ob
    if ob.isEmpty then .error .assertion else .ok (.varchar none)
  | .curTime f p => curTimeType f p
  | .session f => .ok f.type
  | .normalize v _ => do
    let _ ← v.check
    .ok (.varchar none)
  | .query q => q.check
def Expr.checkOpt : Option Expr → Except Err Unit
  | none => .ok ()
  | some e => do
    let _ ← e.check
    .ok ()
def Win.checkOpt : Option Win → Except Err Unit
  | none => .ok ()
  | some w => w.check
def Rel.checkOpt : Option Rel → Except Err Unit
  | none => .ok ()
  | some r => r.check
def GroupBy.checkOpt : Option GroupBy → Except Err Unit
  | none => .ok ()
  | some g => g.check
def Crit.checkOpt : Option Crit → Except Err Unit
  | none => .ok ()
  | some c => c.check
def Expr.checks : List Expr → Except Err (List Ty)
  | [] => .ok []
  | e :: es => do
    let t ← e.check
    let ts ← Expr.checks es
    .ok (t :: ts)
/-- The types of the values of the branches. -/
def Expr.checkWhens : List (Expr × Expr) → Except Err (List Ty)
  | [] => .ok []
  | (c, v) :: bs => do
    let _ ← c.check
    let t ← v.check
    let ts ← Expr.checkWhens bs
    .ok (t :: ts)
def Ord.checks : List Ord → Except Err Unit
  | [] => .ok ()
  | .mk v _ _ :: os => do
    let _ ← v.check
    Ord.checks os
def Bound.check : Bound → Except Err Unit
  | .bounded _ e => do
    let _ ← e.check
    .ok ()
  | .unbounded _ => .ok ()
  | .current => .ok ()
def Win.check : Win → Except Err Unit
  | .mk _ ob ps _ st en => do
    Ord.checks ob
    let _ ← Expr.checks ps
    st.check
    en.check
def Expr.checkLists : List (List Expr) → Except Err Unit
  | [] => .ok ()
  | vs :: gs => do
    let _ ← Expr.checks vs
    Expr.checkLists gs
def Grp.check : Grp → Except Err Unit
  | .set vs => do
    let _ ← Expr.checks vs
    .ok ()
  | .sets gs => do
    Expr.checkLists gs
    if gs.isEmpty then .error .assertion else .ok ()
  | .cube vs => do
    let _ ← Expr.checks vs
    if vs.isEmpty then .error .assertion else .ok ()
  | .rollup vs => do
    let _ ← Expr.checks vs
    if vs.isEmpty then .error .assertion else .ok ()
def Grp.checks : List Grp → Except Err Unit
  | [] => .ok ()
  | g :: gs => do
    g.check
    Grp.checks gs
def GroupBy.check : GroupBy → Except Err Unit
  | .mk gs _ => Grp.checks gs
def Query.check : Query → Except Err Ty
  | .mk body _ _ ob w => do
    Named.checks w
    Ord.checks ob
    body.check
def QBody.check : QBody → Except Err Ty
  -- `SelectQuery.__attrs_post_init__`, treeno/relation.py 459-463
  | .select items fr wh gb hv _ wins => do
    let ts ← Expr.checks items
    Rel.checkOpt fr
    Expr.checkOpt wh
    GroupBy.checkOpt gb
    Expr.checkOpt hv
    Win.checkNamed wins
    if items.isEmpty then .error .assertion else .ok (selectType ts)
  -- `SetQuery._compute_data_type`, treeno/relation.py 282-309
  | .set k l r d => do
    let a ← l.check
    let b ← r.check
    setQueryType k d a b
  -- `TableQuery.__attrs_post_init__`, `TableQuery._compute_data_type`,
  -- treeno/relation.py 625-626, 628-631
  | .table t => do
    t.check
    .ok .unknown
  -- `ValuesQuery.__attrs_post_init__`, treeno/relation.py 691-696
  | .values es => do
    let ts ← Expr.checks es
    valuesType .unknown ts
def Win.checkNamed : List (Str × Win) → Except Err Unit
  | [] => .ok ()
  | (_, w) :: ws => do
    w.check
    Win.checkNamed ws
def Named.check : Named → Except Err Unit
  | .mk r _ _ => r.check
def Named.checks : List Named → Except Err Unit
  | [] => .ok ()
  | n :: ns => do
    n.check
    Named.checks ns
def Rel.check : Rel → Except Err Unit
  | .table t => t.check
  | .query q => do
    let _ ← q.check
    .ok ()
  | .aliased n => n.check
  | .join l r t nat cr => do
    l.check
    r.check
    Crit.checkOpt cr
    if joinConfigOk t nat cr.isSome then .ok () else .error .assertion
  | .unnest as _ => do
    let _ ← Expr.checks as
    .ok ()
  | .lateral q => do
    let _ ← q.check
    .ok ()
  | .sample r _ p => do
    r.check
    let _ ← p.check
    .ok ()
def Crit.check : Crit → Except Err Unit
  | .using _ => .ok ()
  | .on e => do
    let _ ← e.check
    .ok ()
end

/-- `wrap_literal`, treeno/expression.py 414-425: what a caller may pass as an operand. -/
inductive Arg
  | value (e : Expr)
  | none
  | container
  | py (v : Scalar)

def wrapLiteral : Arg → Except Err Expr
  | .value e => .ok e
  | .none => .error .valueError
  | .container => .error .assertion
  | .py v => do .ok (.lit (some v) (← inferType v))

/-- The Python operators of `Value`, treeno/expression.py 109-151. -/
inductive PyOp
  | add | sub | mul | truediv | pow | mod | eq | ne | gt | ge | lt | le | and | or
  deriving DecidableEq, Repr

def PyOp.node (op : PyOp) (l r : Expr) : Expr :=
  match op with
  | .add => .bin .add l r
  | .sub => .bin .sub l r
  | .mul => .bin .mul l r
  | .truediv => .bin .div l r
  | .pow => .func .power [l, r]
  | .mod => .bin .mod l r
  | .eq => .bin .eq l r
  | .ne => .bin .ne l r
  | .gt => .bin .gt l r
  | .ge => .bin .ge l r
  | .lt => .bin .lt l r
  | .le => .bin .le l r
  | .and => .bin .and l r
  | .or => .bin .or l r

/-- Creating a node: the tree if no constructor raises. -/
def Expr.build (e : Expr) : Except Err Expr := do
  let _ ← e.check
  .ok e

/-- `left <op> right` with a `Value` on the left: the constructor's converters wrap the operands
(treeno/expression.py 471-472, 481). -/
def pyBinary (op : PyOp) (l : Expr) (r : Arg) : Except Err Expr := do
  let r' ← wrapLiteral r
  (op.node l r').build

/-- `<literal> <op> value`: Python calls the reflected method, which `Value` has only for the
comparisons (`__gt__` for `<` and so on); otherwise `TypeError`. -/
def PyOp.reflected : PyOp → Option PyOp
  | .eq => some .eq
  | .ne => some .ne
  | .gt => some .lt
  | .ge => some .le
  | .lt => some .gt
  | .le => some .ge
  | _ => none

def pyReflected (op : PyOp) (l : Scalar) (r : Expr) : Except Err Expr :=
  match op.reflected with
  | some op' => pyBinary op' r (.py l)
  | none => .error .typeError

/-- `~value`, `+value`, `-value`, treeno/expression.py 100-107. -/
inductive PyUn
  | invert | pos | neg
  deriving DecidableEq, Repr

def pyUnary (op : PyUn) (v : Expr) : Except Err Expr :=
  (match op with
    | .invert => Expr.not v
    | .pos => .un .pos v
    | .neg => .un .neg v).build

end Treeno
