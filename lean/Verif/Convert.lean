import Verif.Parser
import Verif.Schema
import Verif.Unicode
import Verif.Double
/-!
# From parse trees to query trees: `ConvertVisitor`

treeno/builder/convert.py 104-1304.  `ConvertVisitor` does not override the visit method of the grammar's
`#subquery` alternative (a query in parentheses used as a query), whose inherited version returns the
value of the last child, a `)` token: `None`.  So queries and relations convert to an `Option`, with
`none` for Python's `None`; what Python does with such a `None` inside other nodes is modelled where it
raises at once or is a plain assignment, and is `unmodelled` elsewhere.

Syntax errors: ANTLR's default error strategy reports them on stderr and goes on with a repaired tree;
the model answers `Err.syntax` for every text its parser does not accept.
-/
namespace Treeno

/-! ## Names -/

/-- All functions of `Fn`. -/
def allFns : List Fn :=
  [.concat, .if_, .coalesce, .nullif, .try_, .power, .date, .lastDayOfMonth, .fromIso8601Timestamp,
   .fromIso8601TimestampNanos, .fromIso8601Date, .atTimezone, .withTimezone, .fromUnixtime,
   .fromUnixtimeNanos, .now, .toIso8601, .toMilliseconds, .toUnixtime, .dateTrunc, .dateAdd, .dateDiff,
   .parseDuration, .humanReadableSeconds, .chr, .codepoint, .hammingDistance, .length,
   .levenshteinDistance, .lower, .lpad, .ltrim, .luhnCheck, .replace, .reverse, .rpad, .rtrim, .soundex,
   .toUtf8, .fromUtf8]

/-- All aggregates of `Agg`. -/
def allAggs : List Agg :=
  [.sum, .arbitrary, .arrayAgg, .avg, .boolAnd, .boolOr, .checksum, .count, .countIf, .every,
   .geometricMean, .max, .maxBy, .min, .minBy, .bitwiseAndAgg, .bitwiseOrAgg, .histogram, .mapAgg,
   .mapUnion, .multimapAgg, .approxDistinct, .approxMostFrequent, .approxPercentile, .approxSet, .merge,
   .numericHistogram, .qdigestAgg, .tdigestAgg, .corr, .covarPop, .covarSamp, .kurtosis, .regrIntercept,
   .regrSlope, .skewness, .stddev, .stddevPop, .stddevSamp, .variance, .varPop, .varSamp]

/-- `NAMES_TO_FUNCTIONS` (treeno/functions/base.py 13, 20-38) restricted to `Fn`. -/
def Fn.ofName? (s : Str) : Option Fn := allFns.find? fun f => f.name == s

/-- `NAMES_TO_FUNCTIONS` restricted to `Agg`. -/
def Agg.ofName? (s : Str) : Option Agg := allAggs.find? fun f => f.name == s

/-- `NAMES_TO_FUNCTIONS` restricted to the functions without arguments; like the next ones they are reachable as a
function call through a quoted name only. -/
def SessFn.ofName? (s : Str) : Option SessFn :=
  [SessFn.currentDate, .currentUser, .currentCatalog, .currentSchema, .currentPath].find? fun f => f.name == s

/-- `NAMES_TO_FUNCTIONS` restricted to the functions with a precision. -/
def CurFn.ofName? (s : Str) : Option CurFn :=
  [CurFn.currentTime, .currentTimestamp, .localTime, .localTimestamp].find? fun f => f.name == s

/-- `[self.visit(identifier) for identifier in ctx.identifier()]` -/
def identTexts : List Tok → Except Err (List Str)
  | [] => .ok []
  | t :: ts => do
    let s ← identText t
    let r ← identTexts ts
    .ok (s :: r)

/-- An optional name. -/
def identOpt : Option Tok → Except Err (Option Str)
  | none => .ok none
  | some t => do
    let s ← identText t
    .ok (some s)

/-- `visitSetQuantifier`, convert.py 323-327: `SetQuantifier[text]` is case-sensitive; `true` is
DISTINCT. -/
def quantOf (dflt : Bool) : Option Tok → Except Err Bool
  | none => .ok dflt
  | some t =>
    if t.text = c% "DISTINCT" then .ok true
    else if t.text = c% "ALL" then .ok false
    else .error .keyError

/-- `visitBasicStringLiteral`, `visitUnicodeStringLiteral`, convert.py 732-756. -/
def CStr.conv : CStr → Except Err Str
  | .basic t => stringText t
  | .unicode t e => unicodeText t e

def CStr.convOpt : Option CStr → Except Err (Option Str)
  | none => .ok none
  | some s => do
    let t ← s.conv
    .ok (some t)

/-! ## Literals and operators -/

/-- Round half even to 28 digits (the default decimal context). -/
def roundCoeff (c : Nat) (e : Int) : Nat × Int :=
  let n := (natStr c).length
  if n ≤ 28 then (c, e)
  else
    let k := n - 28
    let q := c / 10 ^ k
    let r := c % 10 ^ k
    let q' := if 2 * r > 10 ^ k ∨ (2 * r = 10 ^ k ∧ q % 2 = 1) then q + 1 else q
    if q' = 10 ^ 28 then (10 ^ 27, e + k + 1) else (q', e + k)

/-- `-value` for a `decimal.Decimal`: rounds to the context precision, and zero has no sign. -/
def Dec.negate (d : Dec) : Dec :=
  let p := roundCoeff d.coeff d.exp
  ⟨if p.1 = 0 then false else !d.neg, p.1, p.2⟩

/-- `visitNumericLiteral` to `visitDoubleLiteral`, convert.py 677-730. -/
def numLit (minus : Bool) (t : Tok) : Except Err Expr :=
  match t.kind with
  | .int => (fun v : Int => Expr.build (.lit (some (.int v)) (inferIntegral v)))
      (if minus then -(digitsVal t.text : Int) else digitsVal t.text)
  | .dec => match decOfPlain t.text with
    | some d => do
      let ty ← inferDecimal d
      Expr.build (.lit (some (.dec (if minus then d.negate else d))) ty)
    | none => .error .unmodelled
  | .dbl => Expr.build (.lit (some (.float (floatStr minus t.text))) (.simple .double))
  | _ => .error .unmodelled

/-- `apply_operator` for the comparison operators, convert.py 116-152 and 359-371: `!=` is not
recognised. -/
def cmpOf (t : Tok) : Except Err BinOp :=
  if t.text = c% "=" then .ok .eq
  else if t.text = c% ">" then .ok .gt
  else if t.text = c% ">=" then .ok .ge
  else if t.text = c% "<" then .ok .lt
  else if t.text = c% "<=" then .ok .le
  else if t.text = c% "<>" then .ok .ne
  else .error .notImplemented

/-- `apply_operator` for the binary arithmetic operators. -/
def arithOf (t : Tok) : Except Err BinOp :=
  if t.text = c% "+" then .ok .add
  else if t.text = c% "-" then .ok .sub
  else if t.text = c% "*" then .ok .mul
  else if t.text = c% "/" then .ok .div
  else if t.text = c% "%" then .ok .mod
  else .error .notImplemented

/-- `apply_operator` for the signs. -/
def signOf (t : Tok) : Except Err UnOp :=
  if t.text = c% "+" then .ok .pos
  else if t.text = c% "-" then .ok .neg
  else .error .notImplemented

/-- `~value` when the predicate is negated. -/
def negIf (neg : Bool) (e : Expr) : Except Err Expr :=
  if neg then Expr.build (.not e) else Expr.build e

/-- `lstrip("+")` of a string that starts with a plus, convert.py 521-522; it removes all of them. -/
def stripPlus (s : Str) : Str := match s with
  | '+' :: _ => s.dropWhile (· == '+')
  | s => s

/-- The sign outside of the string, convert.py 526-532. -/
def flipText (s : Str) : Str := match s with
  | '-' :: _ => s.dropWhile (· == '-')
  | s => '-' :: s

/-- `string_value` of an interval, convert.py 518-532. -/
def intervalValue (minus : Bool) (s : Str) : Str :=
  if minus then flipText (stripPlus s) else stripPlus s

/-- `visitDereference`, convert.py 611-621. -/
def derefOf (b : Expr) (n : Str) : Except Err Expr :=
  match b with
  | .field m t _ =>
    match truthy t with
    | some _ => .error .assertion
    | none => Expr.build (.field n (some m) .unknown)
  | .fieldOf _ _ _ => .error .assertion
  | b => Expr.build (.fieldOf n b .unknown)

/-- The star of `visitSelectAll`, convert.py 1000-1011. -/
def starOfBase (b : Expr) : Except Err Expr :=
  match b with
  | .field m _ _ => Expr.build (.star (some m) .unknown)
  | .fieldOf m _ _ => Expr.build (.star (some m) .unknown)
  | b => Expr.build (.starOf b .unknown)

/-- `visitSpecialDateTimeFunction`, convert.py 623-635. -/
def dateTimeOf (t : Tok) (prec : Option Tok) : Except Err Expr :=
  let p : Int := match prec with
    | some n => digitsVal n.text
    | none => 3
  if upper t.text = c% "CURRENT_DATE" then Expr.build (.session .currentDate)
  else if upper t.text = c% "CURRENT_TIME" then Expr.build (.curTime .currentTime p)
  else if upper t.text = c% "CURRENT_TIMESTAMP" then Expr.build (.curTime .currentTimestamp p)
  else if upper t.text = c% "LOCALTIME" then Expr.build (.curTime .localTime p)
  else if upper t.text = c% "LOCALTIMESTAMP" then Expr.build (.curTime .localTimestamp p)
  else .error .assertion

/-- `visitCurrentUser`, `visitCurrentCatalog`, `visitCurrentSchema`, `visitCurrentPath`, convert.py
637-659. -/
def sessionOf (t : Tok) : Except Err Expr :=
  if upper t.text = c% "CURRENT_USER" then Expr.build (.session .currentUser)
  else if upper t.text = c% "CURRENT_CATALOG" then Expr.build (.session .currentCatalog)
  else if upper t.text = c% "CURRENT_SCHEMA" then Expr.build (.session .currentSchema)
  else if upper t.text = c% "CURRENT_PATH" then Expr.build (.session .currentPath)
  else .error .assertion

/-- `visitNormalForm`, convert.py 557-561. -/
def formOf : Option Tok → Except Err (Option NormalForm)
  | none => .ok none
  | some t =>
    if t.text = c% "NFD" then .ok (some .nfd)
    else if t.text = c% "NFC" then .ok (some .nfc)
    else if t.text = c% "NFKD" then .ok (some .nfkd)
    else if t.text = c% "NFKC" then .ok (some .nfkc)
    else .error .keyError

/-- `visitListAggOverflowBehavior`, `visitListaggCountIndication`, convert.py 889-914. -/
def overflowOf : Option COverflow → Except Err (Option (Str × Bool))
  | none => .ok none
  | some .error => .ok none
  | some (.truncate none w) => .ok (some (c% "...", w))
  | some (.truncate (some s) w) => do
    let t ← s.conv
    .ok (some (t, w))

/-! ## Function calls -/

/-- `ApproxPercentile.__init__` swaps the last two of three positional arguments,
treeno/functions/aggregate.py 492-497. -/
def aggArgOrder (f : Agg) (as : List Expr) : List Expr :=
  match f, as with
  | .approxPercentile, [v, a, b] => [v, b, a]
  | _, as => as

/-- `FromUnixtime.from_args` takes two or three arguments, treeno/functions/datetime.py 186-194. -/
def fnArgsOk (f : Fn) (n : Nat) : Bool := f != .fromUnixtime || n == 2 || n == 3

/-- `ListAgg`, treeno/functions/aggregate.py 223-244, as a function.  A separator or an overflow filler is an expression
then where text is expected, which is not modelled. -/
def listaggCall (args : List Expr) (ob : List Ord) (bad : Bool) : Except Err Expr :=
  match args with
  | [v] => if bad then .error .assertion else Expr.build (.listagg v (c% " ") none ob)
  | [_, _] | [_, _, _] => if bad || ob.isEmpty then .error .assertion else .error .unmodelled
  | _ => .error .typeError

/-- `Normalize`, treeno/functions/string.py 258-265, as a function.  A normal form is an expression then, which is not
modelled. -/
def normalizeCall : List Expr → Except Err Expr
  | [v] => Expr.build (.normalize v none)
  | [_, _] => .error .unmodelled
  | _ => .error .typeError

/-- `ParametrizedDateTimeFunction`, treeno/functions/datetime.py 40-85, as a function.  The precision is an expression
then and no number; the message of the assertion prints it (treeno/datatypes/types.py 97-101). -/
def curTimeCall (f : CurFn) : List Expr → Except Err Expr
  | [] => Expr.build (.curTime f 3)
  | [e] => do
    let _ ← e.sql {}
    .error .assertion
  | _ => .error .typeError

/-- Functions with a syntax of their own called like the others. -/
def specialOf (n : Str) (args : List Expr) (ob : List Ord) (fl : Option Expr) (ign : Option Bool)
    (w : Option Win) : Except Err Expr :=
  if n = c% "LISTAGG" then listaggCall args ob (ign == some true || w.isSome || fl.isSome)
  else if n = c% "NORMALIZE" then
    if w.isSome || !ob.isEmpty || fl.isSome || ign.isSome then .error .assertion else normalizeCall args
  else match SessFn.ofName? n with
    | some f =>
      if w.isSome || !ob.isEmpty || fl.isSome || ign.isSome then .error .assertion
      else if args.isEmpty then Expr.build (.session f) else .error .typeError
    | none =>
      match CurFn.ofName? n with
      | some f => if w.isSome || !ob.isEmpty || fl.isSome || ign.isSome then .error .assertion else curTimeCall f args
      | none => .error .assertion

/-- `visitFunctionCall` after its parts are visited, convert.py 781-839, and `Function.from_args`,
treeno/functions/base.py 41-59.  Keyword arguments are only accepted by aggregates. -/
def callOf (name : List Str) (args : List Expr) (ob : List Ord) (fl : Option Expr) (ign : Option Bool)
    (w : Option Win) : Except Err Expr :=
  match name with
  | [n] =>
    match Fn.ofName? (upper n) with
    | some f =>
      if w.isSome || !ob.isEmpty || fl.isSome || ign.isSome then .error .assertion
      else if fnArgsOk f args.length then Expr.build (.func f args)
      else .error .valueError
    | none =>
      match Agg.ofName? (upper n) with
      | some f => Expr.build (.agg f (aggArgOrder f args) ob fl w (ign == some true))
      | none => specialOf (upper n) args ob fl ign w
  | _ => .error .assertion

/-! ## Queries and relations -/

/-- Creating a query: the tree if no constructor raises. -/
def Query.build (q : Query) : Except Err Query := do
  let _ ← q.check
  .ok q

/-- Creating a relation. -/
def Rel.build (r : Rel) : Except Err Rel := do
  r.check
  .ok r

/-- Creating a grouping element. -/
def Grp.build (g : Grp) : Except Err Grp := do
  g.check
  .ok g

/-- A value that Python needs to be an object here. -/
def noneIs {α} (e : Err) : Option α → Except Err α
  | some a => .ok a
  | none => .error e

/-- `visitRowCount`, convert.py 257-262. -/
def rowCountOf (t : Tok) : Except Err Int :=
  if t.kind = .int then .ok (digitsVal t.text) else .error .assertion

/-- `visitLimitRowCount`, convert.py 279-290. -/
def limitOf (t : Tok) : Except Err (Option Int) :=
  if t.kind = .int then .ok (some (digitsVal t.text))
  else if t.text = c% "ALL" then .ok none
  else .error .assertion

/-- Setting `orderby`, `offset`, `limit` and `with_` on a query. -/
def Query.setOrder (ob : List Ord) : Query → Query
  | .mk b off lim _ w => .mk b off lim ob w
def Query.setOffset (n : Int) : Query → Query
  | .mk b _ lim ob w => .mk b (some n) lim ob w
def Query.setLimit (n : Option Int) : Query → Query
  | .mk b off _ ob w => .mk b off n ob w
def Query.setWith (w : List Named) : Query → Query
  | .mk b off lim ob _ => .mk b off lim ob w

/-- Setting an attribute: `AttributeError` on `None`. -/
def setAttr (f : Query → Query) (q : Option Query) : Except Err (Option Query) := do
  let q ← noneIs .attributeError q
  .ok (some (f q))

/-- `visitQueryNoWith` after its parts are visited, convert.py 226-237.  A FETCH clause is dropped. -/
def orderQuery (ob : List Ord) (q : Option Query) : Except Err (Option Query) :=
  if ob.isEmpty then .ok q else setAttr (Query.setOrder ob) q
def offsetQuery (off : Option (Tok × Option Tok)) (q : Option Query) : Except Err (Option Query) :=
  match off with
  | none => .ok q
  | some (t, _) => do
    let n ← rowCountOf t
    setAttr (Query.setOffset n) q
def limitQuery (lim : CLimit) (q : Option Query) : Except Err (Option Query) :=
  match lim with
  | .limit t => do
    let n ← limitOf t
    setAttr (Query.setLimit n) q
  | _ => .ok q

/-- `visitQuery` after its parts are visited, convert.py 195-202. -/
def withQuery (ns : List Named) (q : Option Query) : Except Err (Option Query) :=
  if ns.isEmpty then .ok q else setAttr (Query.setWith ns) q

/-- The operator of `visitSetOperation`, convert.py 239-255. -/
def setKindOf (t : Tok) : Except Err SetKind :=
  if upper t.text = c% "INTERSECT" then .ok .intersect
  else if upper t.text = c% "UNION" then .ok .union
  else if upper t.text = c% "EXCEPT" then .ok .except
  else .error .notImplemented

/-- What a missing operand of a set operation does: `UnionQuery` reads `left.data_type`; the other two
are built around `None`, which is not modelled. -/
def missingOperand : SetKind → Err
  | .union => .attributeError
  | _ => .unmodelled

/-- `dict(pairs)`: later values replace earlier ones at their place. -/
def dictSet (k : Str) (w : Win) : List (Str × Win) → List (Str × Win)
  | [] => [(k, w)]
  | (k', w') :: r => if k' = k then (k, w) :: r else (k', w') :: dictSet k w r
def dictOf (ps : List (Str × Win)) : List (Str × Win) := ps.foldl (fun d p => dictSet p.1 p.2 d) []

/-- `visitJoinType`, convert.py 1055-1063. -/
def CJoin.conv : CJoin → JoinType
  | .inner _ => .inner
  | .left _ => .left
  | .right _ => .right
  | .full _ => .outer

/-- `visitSampleType`, convert.py 1084-1088: `SampleType[text]` is case-sensitive. -/
def sampleOf (t : Tok) : Except Err SampleType :=
  if t.text = c% "BERNOULLI" then .ok .bernoulli
  else if t.text = c% "SYSTEM" then .ok .system
  else .error .keyError

/-- `FrameType[text.upper()]`, convert.py 1236-1244. -/
def frameOf (t : Tok) : Except Err FrameType :=
  if upper t.text = c% "RANGE" then .ok .range
  else if upper t.text = c% "ROWS" then .ok .rows
  else if upper t.text = c% "GROUPS" then .ok .groups
  else .error .keyError

/-- `BoundType[text.upper()]`, convert.py 1246-1261. -/
def boundOf (t : Tok) : Except Err BoundType :=
  if upper t.text = c% "PRECEDING" then .ok .preceding
  else if upper t.text = c% "FOLLOWING" then .ok .following
  else .error .keyError

/-- `visitSortItem`, convert.py 264-277. -/
def isDesc : Option Tok → Bool
  | none => false
  | some t => upper t.text != c% "ASC"
def isNullsFirst : Option Tok → Bool
  | none => false
  | some t => upper t.text != c% "LAST"

/-- An item with its alias: `visitSelectSingle`, convert.py 945-954. -/
def aliasOf (e : Expr) : Option Str → Except Err Expr
  | none => .ok e
  | some a => Expr.build (.alias e a)

/-- A star with its column aliases, convert.py 1011-1017. -/
def starAliases (s : Expr) (cols : List Str) : Except Err Expr :=
  if cols.isEmpty then .ok s else Expr.build (.aliasedStar s cols)

/-- The single FROM relation of `visitQuerySpecification`, convert.py 1269-1282: with `None` the query
has no FROM clause. -/
def fromOf : List (Option Rel) → Except Err (Option Rel)
  | [] => .ok none
  | [r] => .ok r
  | _ => .error .notImplemented

/-- `visitGroupBy`, convert.py 1156-1164. -/
def groupByOf (d : Bool) (gs : List Grp) : Option GroupBy :=
  if gs.isEmpty then none else some (.mk gs d)

/-! ## Visits that return `None`

The visitor has no methods for binary literals, EXISTS, POSITION, SUBSTRING, EXTRACT, TRIM and GROUPING.  The inherited ones
visit the children and return what the last of them gives (`visitChildren` of antlr4); it is the literal or the
closing parenthesis, and a terminal gives `None`. -/

/-- The visit of this expression returns `None`. -/
def CE.isNone : CE → Bool
  | .exists_ _ | .position _ _ | .substring _ _ _ | .extract _ _ | .trimFrom _ _ _ | .trim _ _ | .grouping _ | .binary _ => true
  | .paren e => e.isNone
  | _ => false
def CE.isNoneOpt : Option CE → Bool
  | none => false
  | some e => e.isNone

/-- A place where `None` is taken for a missing part. -/
def dropNone {α} (b : Bool) : Except Err (Option α) → Except Err (Option α)
  | .ok a => .ok a
  | .error .noneValue => if b then .ok none else .error .unmodelled
  | .error e => .error e

/-- A visit whose value is not used. -/
def visited (b : Bool) (x : Except Err Expr) : Except Err (Option Expr) := dropNone b (x.map some)

/-- `visitChildren` with a terminal at the end. -/
def nothing : Except Err Expr := .error .noneValue

/-- `timeZoneSpecifier`, SqlBase.g4 623-626.  There is no visit method for it nor for `#atTimeZone`, so that
both return what their last child gives: the interval, or the text of the string, which is not a tree. -/
def zoneOf : CE → Except Err Expr
  | .interval sg s f t => do
    let v ← s.conv
    Expr.build (.interval (intervalValue (sg.any fun t => t.text == c% "-") v) f.text (t.map Tok.text))
  | _ => .error .unmodelled

mutual
/-- The visit methods of the expressions, convert.py 329-1017.  `.error .noneValue` is a visit that returned
`None`. -/
def CE.conv : CE → Except Err Expr
  | .or_ l r => do
    let a ← l.conv
    let b ← r.conv
    Expr.build (.bin .or a b)
  | .and_ l r => do
    let a ← l.conv
    let b ← r.conv
    Expr.build (.bin .and a b)
  | .not_ v => do
    let e ← v.conv
    Expr.build (.not e)
  | .cmp op l r => do
    let a ← l.conv
    let b ← r.conv
    let o ← cmpOf op
    Expr.build (.bin o a b)
  | .between neg v l u => do
    let a ← v.conv
    let b ← l.conv
    let c ← u.conv
    negIf neg (.between a b c)
  | .inList neg v es => do
    let a ← v.conv
    let bs ← CE.convs es
    negIf neg (.inList a bs)
  | .inSub neg v q => do
    let a ← v.conv
    let b ← q.conv
    let b' ← noneIs .unmodelled b
    negIf neg (.inQuery a b')
  | .like neg v p esc => do
    let a ← v.conv
    let c ← dropNone (CE.isNoneOpt esc) (CE.convOpt esc)
    let b ← p.conv
    negIf neg (.like a b c)
  | .isNull neg v => do
    let a ← v.conv
    negIf neg (.isNull a)
  | .distinct neg l r => do
    let a ← l.conv
    let b ← r.conv
    negIf neg (.bin .distinct a b)
  | .quantified _ _ l _ => do
    let _ ← visited l.isNone l.conv
    .error .notImplemented
  | .concat l r => do
    let a ← l.conv
    let b ← r.conv
    Expr.build (.func .concat [a, b])
  | .arith op l r => do
    let a ← l.conv
    let b ← r.conv
    let o ← arithOf op
    Expr.build (.bin o a b)
  | .sign op v => do
    let a ← v.conv
    let o ← signOf op
    Expr.build (.un o a)
  | .atZone v z => do
    let _ ← visited v.isNone v.conv
    zoneOf z
  | .null => Expr.build (.lit none .unknown)
  | .interval sg s f t => do
    let v ← s.conv
    Expr.build (.interval (intervalValue (sg.any fun t => t.text == c% "-") v) f.text (t.map Tok.text))
  | .typeCtor n s => do
    let v ← s.conv
    let t ← identText n
    Expr.build (.typeCtor v t)
  | .doublePrecision s => do
    let _ ← s.conv
    .error .typeError
  | .num m t => numLit m t
  | .bool t => Expr.build (.lit (some (.bool (upper t.text == c% "TRUE"))) .boolean)
  | .str s => do
    let v ← s.conv
    let ty ← mkType (c% "VARCHAR") [(c% "max_chars", .int v.length)]
    Expr.build (.lit (some (.str v)) ty)
  | .binary _ => nothing
  | .param => .error .notImplemented
  | .row es => do
    let vs ← CE.convs es
    Expr.build (.row vs)
  | .rowKw es => do
    let vs ← CE.convs es
    Expr.build (.row vs)
  | .listagg _ e sep ov ob => do
    let s ← CStr.convOpt sep
    let f ← overflowOf ov
    let o ← CSort.convs ob
    let v ← e.conv
    Expr.build (.listagg v (s.getD (c% " ")) f o)
  | .callStar name label fl w => do
    let n ← identTexts name
    let w' ← CWin.convOpt w
    let f ← CE.convOpt fl
    let l ← identOpt label
    callOf n [.star l .unknown] [] f none w'
  | .call name _ args ob fl ign w => do
    let n ← identTexts name
    let w' ← CWin.convOpt w
    let o ← CSort.convs ob
    let f ← CE.convOpt fl
    let as ← CE.convs args
    callOf n as o f ign w'
  | .lam _ ids b => do
    let ns ← identTexts ids
    let e ← b.conv
    lambdaOf ns e
  | .sub q => do
    let q' ← q.conv
    let q'' ← noneIs .unmodelled q'
    .ok (.query q'')
  | .case v ws e => do
    let bs ← CWhen.convs ws
    let a ← dropNone (CE.isNoneOpt v) (CE.convOpt v)
    let c ← CE.convOpt e
    Expr.build (.case a bs c)
  | .cast tr e ty _ => do
    let a ← e.conv
    let t ← ty.conv
    Expr.build (.cast tr a t)
  | .array es => do
    let vs ← CE.convs es
    Expr.build (.array vs)
  | .subscript v i => do
    let a ← v.conv
    let b ← i.conv
    Expr.build (.subscript a b)
  | .col t => do
    let n ← identText t
    Expr.build (.field n none .unknown)
  | .deref v n => do
    let a ← v.conv
    let s ← identText n
    derefOf a s
  | .dateTime t p => dateTimeOf t p
  | .session t => sessionOf t
  | .normalize v f => do
    let a ← v.conv
    let fo ← formOf f
    Expr.build (.normalize a fo)
  | .paren e => e.conv
  | .exists_ q => do
    let _ ← dropNone false q.conv
    nothing
  | .position l r => do
    let _ ← visited l.isNone l.conv
    let _ ← visited r.isNone r.conv
    nothing
  | .substring v f n => do
    let _ ← visited v.isNone v.conv
    let _ ← visited f.isNone f.conv
    let _ ← dropNone (CE.isNoneOpt n) (CE.convOpt n)
    nothing
  | .extract t v => do
    let _ ← identText t
    let _ ← visited v.isNone v.conv
    nothing
  | .trimFrom _ c v => do
    let _ ← dropNone (CE.isNoneOpt c) (CE.convOpt c)
    let _ ← visited v.isNone v.conv
    nothing
  | .trim v c => do
    let _ ← visited v.isNone v.conv
    let _ ← dropNone (CE.isNoneOpt c) (CE.convOpt c)
    nothing
  | .grouping ns => do
    let _ ← identTexts ns.flatten
    nothing
def CE.convOpt : Option CE → Except Err (Option Expr)
  | none => .ok none
  | some e => do
    let a ← e.conv
    .ok (some a)
def CE.convs : List CE → Except Err (List Expr)
  | [] => .ok []
  | e :: es => do
    let a ← e.conv
    let as ← CE.convs es
    .ok (a :: as)
/-- `visitWhenClause`, convert.py 477-481. -/
def CWhen.convs : List CWhen → Except Err (List (Expr × Expr))
  | [] => .ok []
  | .mk c v :: ws => do
    let a ← c.conv
    let b ← v.conv
    let bs ← CWhen.convs ws
    .ok ((a, b) :: bs)
/-- `visitSortItem`, convert.py 264-277. -/
def CSort.convs : List CSort → Except Err (List Ord)
  | [] => .ok []
  | .mk e o n :: ss => do
    let a ← e.conv
    let os ← CSort.convs ss
    .ok (.mk a (isDesc o) (isNullsFirst n) :: os)
/-- `visitBoundedFrame`, `visitUnboundedFrame`, `visitCurrentRowBound`, convert.py 1246-1267. -/
def CBound.conv : CBound → Except Err Bound
  | .unbounded t => do
    let b ← boundOf t
    .ok (.unbounded b)
  | .current => .ok .current
  | .bounded e t => do
    let b ← boundOf t
    let a ← e.conv
    .ok (.bounded b a)
/-- `visitFrameExtent`, convert.py 1221-1244; the defaults of `Window`, treeno/window.py 81-99. -/
def CFrame.conv : CFrame → Except Err (FrameType × Bound × Bound)
  | .none => .ok (.range, .unbounded .preceding, .current)
  | .from_ t b => do
    let f ← frameOf t
    let a ← b.conv
    .ok (f, a, .current)
  | .between t a b => do
    let f ← frameOf t
    let x ← a.conv
    let y ← b.conv
    .ok (f, x, y)
/-- `visitOver`, `visitWindowSpecification`, convert.py 920-925, 1202-1219. -/
def CWin.conv : CWin → Except Err Win
  | .ref t => do
    let n ← identText t
    .ok (.mk (some n) [] [] .range (.unbounded .preceding) .current)
  | .spec p ps ob fr => do
    let f ← fr.conv
    let o ← CSort.convs ob
    let as ← CE.convs ps
    let n ← identOpt p
    .ok (.mk n o as f.1 f.2.1 f.2.2)
def CWin.convOpt : Option CWin → Except Err (Option Win)
  | none => .ok none
  | some w => do
    let a ← w.conv
    .ok (some a)
/-- `visitGroupingSet`, convert.py 1172-1176. -/
def CSet.conv : CSet → Except Err (List Expr)
  | .paren es => CE.convs es
  | .expr e => do
    let a ← e.conv
    .ok [a]
def CSet.convs : List CSet → Except Err (List (List Expr))
  | [] => .ok []
  | s :: ss => do
    let a ← s.conv
    let as ← CSet.convs ss
    .ok (a :: as)
/-- `visitSingleGroupingSet`, `visitRollup`, `visitCube`, `visitMultipleGroupingSets`, convert.py
1166-1194. -/
def CGrp.conv : CGrp → Except Err Grp
  | .single s => do
    let vs ← s.conv
    Grp.build (.set vs)
  | .rollup es => do
    let vs ← CE.convs es
    Grp.build (.rollup vs)
  | .cube es => do
    let vs ← CE.convs es
    Grp.build (.cube vs)
  | .sets ss => do
    let gs ← CSet.convs ss
    Grp.build (.sets gs)
def CGrp.convs : List CGrp → Except Err (List Grp)
  | [] => .ok []
  | s :: ss => do
    let a ← s.conv
    let as ← CGrp.convs ss
    .ok (a :: as)
/-- `visitSelectSingle`, `visitSelectAll`, convert.py 945-954, 1000-1017. -/
def CItem.conv : CItem → Except Err Expr
  | .expr e _ a => do
    let v ← e.conv
    let n ← identOpt a
    aliasOf v n
  | .allOf e cols => do
    let b ← e.conv
    let s ← starOfBase b
    let cs ← identTexts cols
    starAliases s cs
  | .all => Expr.build (.star none .unknown)
def CItem.convs : List CItem → Except Err (List Expr)
  | [] => .ok []
  | s :: ss => do
    let a ← s.conv
    let as ← CItem.convs ss
    .ok (a :: as)
/-- `visitWindowDefinition`, convert.py 1196-1200. -/
def CWinDef.convs : List CWinDef → Except Err (List (Str × Win))
  | [] => .ok []
  | .mk n w :: ws => do
    let s ← identText n
    let a ← w.conv
    let as ← CWinDef.convs ws
    .ok ((s, a) :: as)
/-- `visitQuery`, `visitWith_`, convert.py 195-211. -/
def CQ.conv : CQ → Except Err (Option Query)
  | .mk rc w b => do
    let q ← b.conv
    if rc then .error .assertion
    else do
      let ns ← CNamed.convs w
      withQuery ns q
/-- `visitNamedQuery`, convert.py 213-224. -/
def CNamed.convs : List CNamed → Except Err (List Named)
  | [] => .ok []
  | .mk n cols q :: ns => do
    let cs ← identTexts cols
    let q' ← q.conv
    let q'' ← noneIs .unmodelled q'
    let a ← identText n
    let as ← CNamed.convs ns
    .ok (.mk (.query q'') a cs :: as)
/-- `visitQueryNoWith`, convert.py 226-237. -/
def CQN.conv : CQN → Except Err (Option Query)
  | .mk t ob off lim => do
    let q ← t.conv
    let o ← CSort.convs ob
    let q ← orderQuery o q
    let q ← offsetQuery off q
    limitQuery lim q
/-- `visitSetOperation`, `visitQuerySpecification`, `visitTable`, `visitInlineTable`, convert.py 239-310,
1269-1304; the inherited `visitSubquery`. -/
def CQT.conv : CQT → Except Err (Option Query)
  | .set op quant l r => do
    let a ← l.conv
    let b ← r.conv
    let d ← quantOf true quant
    let k ← setKindOf op
    let a' ← noneIs (missingOperand k) a
    let b' ← noneIs (missingOperand k) b
    let q ← Query.build (.mk (.set k a' b' d) none none [] [])
    .ok (some q)
  | .spec quant items fr wh gq gs hv wins => do
    let is ← CItem.convs items
    let rs ← CR.convs fr
    let f ← fromOf rs
    let d ← quantOf false quant
    let w ← dropNone (CE.isNoneOpt wh) (CE.convOpt wh)
    let h ← dropNone (CE.isNoneOpt hv) (CE.convOpt hv)
    let g ← CGrp.convs gs
    let gd ← quantOf false gq
    let ws ← CWinDef.convs wins
    let q ← Query.build (.mk (.select is f w (groupByOf gd g) h d (dictOf ws)) none none [] [])
    .ok (some q)
  | .table name => do
    let ns ← identTexts name
    let t ← tableFromQualifiers ns
    let q ← Query.build (.mk (.table t) none none [] [])
    .ok (some q)
  | .values es => do
    let vs ← CE.convs es
    let q ← Query.build (.mk (.values vs) none none [] [])
    .ok (some q)
  | .sub q => do
    let _ ← q.conv
    .ok none
/-- The visit methods of the relations, convert.py 1019-1154. -/
def CR.conv : CR → Except Err (Option Rel)
  | .cross l r => do
    let a ← l.conv
    let b ← r.conv
    let a' ← noneIs .unmodelled a
    let b' ← noneIs .unmodelled b
    let x ← Rel.build (.join a' b' .cross false none)
    .ok (some x)
  | .natural l t r => do
    let a ← l.conv
    let b ← r.conv
    let a' ← noneIs .unmodelled a
    let b' ← noneIs .unmodelled b
    let x ← Rel.build (.join a' b' t.conv true none)
    .ok (some x)
  | .join l t r c => do
    let a ← l.conv
    let b ← r.conv
    let c' ← c.conv
    let a' ← noneIs .unmodelled a
    let b' ← noneIs .unmodelled b
    let x ← Rel.build (.join a' b' t.conv false (some c'))
    .ok (some x)
  | .sample r t e => do
    let a ← r.conv
    let k ← sampleOf t
    let p ← e.conv
    let a' ← noneIs .unmodelled a
    let x ← Rel.build (.sample a' k p)
    .ok (some x)
  | .alias r _ n cols => do
    let a ← r.conv
    let s ← identText n
    let cs ← identTexts cols
    let a' ← noneIs .unmodelled a
    let x ← Rel.build (.aliased (.mk a' s cs))
    .ok (some x)
  | .table name => do
    let ns ← identTexts name
    let t ← tableFromQualifiers ns
    .ok (some (.table t))
  | .sub q => do
    let q' ← q.conv
    .ok (q'.map .query)
  | .unnest es ord => do
    let vs ← CE.convs es
    let x ← Rel.build (.unnest vs ord)
    .ok (some x)
  | .lateral q => do
    let q' ← q.conv
    let q'' ← noneIs .unmodelled q'
    let x ← Rel.build (.lateral q'')
    .ok (some x)
  | .paren r => r.conv
def CR.convs : List CR → Except Err (List (Option Rel))
  | [] => .ok []
  | s :: ss => do
    let a ← s.conv
    let as ← CR.convs ss
    .ok (a :: as)
/-- `visitJoinCriteria`, convert.py 1043-1053. -/
def CCrit.conv : CCrit → Except Err Crit
  | .on e => do
    let a ← e.conv
    .ok (.on a)
  | .using cols => do
    let cs ← identTexts cols
    .ok (.using cs)
end

/-- `expression_from_sql`, convert.py 108-109: rule `standaloneExpression` (SqlBase.g4 25-27) and its
visitor. -/
noncomputable def expressionFromSql (s : Str) : Except Err Expr :=
  match P (.lv 0) (toks s) with
  | some (c, []) => c.conv
  | _ => .error .syntax

/-- `query_from_sql`, convert.py 104-105: rule `query`, which need not reach the end of the text, and its
visitor. -/
noncomputable def queryFromSql (s : Str) : Except Err (Option Query) :=
  match P .query (toks s) with
  | some (c, _) => c.conv
  | none => .error .syntax

/-- `expression_from_sql` and `query_from_sql` with a bound on the nesting, to run examples. -/
def expressionFromSqlN (n : Nat) (s : Str) : Except Err Expr :=
  match parserN n (.lv 0) (toks s) with
  | some (c, []) => c.conv
  | _ => .error .syntax
def queryFromSqlN (n : Nat) (s : Str) : Except Err (Option Query) :=
  match parserN n .query (toks s) with
  | some (c, _) => c.conv
  | none => .error .syntax

end Treeno
