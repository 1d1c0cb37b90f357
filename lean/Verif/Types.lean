import Verif.Py
/-!
# `treeno/datatypes/types.py` and `treeno/datatypes/builder.py`

A Python `DataType` object is a `type_name` and a dict `parameters`.  After construction only the
shapes of `Ty` are possible; `mkType` models the constructor from an arbitrary name and dict, and
`Ty.typeName`/`Ty.params` recover the two attributes.  The theorem `mkType_ok_iff` (Props/TypeProps)
proves that this correspondence is exact.

Simplifications: dict equality ignores order, so a `Ty` does not record the insertion order of
`parameters`; `bool` is a subclass of `int` in Python, a `bool` passed where an `int` is declared is
answered by `Err.unmodelled`.
-/
namespace Treeno

/-- The type names without parameters, treeno/datatypes/types.py 37-64 (those with no entry in
`FIELDS`, 238-277). -/
inductive Simple
  | boolean | integer | tinyint | smallint | bigint | real | double | varbinary | json | date
  | ipaddress | uuid | hyperloglog | p4hyperloglog | tdigest | unknown
  deriving DecidableEq, Repr

/-- The two interval kinds allowed by `validate_interval`, treeno/datatypes/types.py 221-235. -/
inductive IvKind
  | yearToMonth | dayToSecond
  deriving DecidableEq, Repr

/-- Constructed data types (`DataType` objects after `__attrs_post_init__`). -/
inductive Ty
  | simple (s : Simple)
  | decimal (precision scale : Int)
  | varchar (maxChars : Option Int)
  | char (maxChars : Int)
  | time (precision : Option Int) (timezone : Bool)
  | timestamp (precision : Option Int) (timezone : Bool)
  | interval (k : IvKind)
  | array (dtype : Ty)
  | map (fromT toT : Ty)
  | row (dtypes : List Ty)
  | qdigest (dtype : Ty)
  deriving Repr

mutual
/-- Structural equality of types (`DataType.__eq__` generated by attrs: name and parameters). -/
def Ty.decEq : (a b : Ty) → Decidable (a = b)
  | .simple a, .simple b => decidable_of_iff (a = b) (by simp)
  | .decimal a b, .decimal c d => decidable_of_iff (a = c ∧ b = d) (by simp)
  | .varchar a, .varchar b => decidable_of_iff (a = b) (by simp)
  | .char a, .char b => decidable_of_iff (a = b) (by simp)
  | .time a b, .time c d => decidable_of_iff (a = c ∧ b = d) (by simp)
  | .timestamp a b, .timestamp c d => decidable_of_iff (a = c ∧ b = d) (by simp)
  | .interval a, .interval b => decidable_of_iff (a = b) (by simp)
  | .array a, .array b => match Ty.decEq a b with
    | isTrue h => isTrue (by rw [h])
    | isFalse h => isFalse (by simpa using h)
  | .map a b, .map c d => match Ty.decEq a c, Ty.decEq b d with
    | isTrue h, isTrue k => isTrue (by rw [h, k])
    | isFalse h, _ => isFalse (by simp [h])
    | _, isFalse h => isFalse (by simp [h])
  | .row a, .row b => match Ty.decEqList a b with
    | isTrue h => isTrue (by rw [h])
    | isFalse h => isFalse (by simpa using h)
  | .qdigest a, .qdigest b => match Ty.decEq a b with
    | isTrue h => isTrue (by rw [h])
    | isFalse h => isFalse (by simpa using h)
  | .simple _, .decimal _ _ | .simple _, .varchar _ | .simple _, .char _ | .simple _, .time _ _
  | .simple _, .timestamp _ _ | .simple _, .interval _ | .simple _, .array _ | .simple _, .map _ _
  | .simple _, .row _ | .simple _, .qdigest _
  | .decimal _ _, .simple _ | .decimal _ _, .varchar _ | .decimal _ _, .char _
  | .decimal _ _, .time _ _ | .decimal _ _, .timestamp _ _ | .decimal _ _, .interval _
  | .decimal _ _, .array _ | .decimal _ _, .map _ _ | .decimal _ _, .row _ | .decimal _ _, .qdigest _
  | .varchar _, .simple _ | .varchar _, .decimal _ _ | .varchar _, .char _ | .varchar _, .time _ _
  | .varchar _, .timestamp _ _ | .varchar _, .interval _ | .varchar _, .array _ | .varchar _, .map _ _
  | .varchar _, .row _ | .varchar _, .qdigest _
  | .char _, .simple _ | .char _, .decimal _ _ | .char _, .varchar _ | .char _, .time _ _
  | .char _, .timestamp _ _ | .char _, .interval _ | .char _, .array _ | .char _, .map _ _
  | .char _, .row _ | .char _, .qdigest _
  | .time _ _, .simple _ | .time _ _, .decimal _ _ | .time _ _, .varchar _ | .time _ _, .char _
  | .time _ _, .timestamp _ _ | .time _ _, .interval _ | .time _ _, .array _ | .time _ _, .map _ _
  | .time _ _, .row _ | .time _ _, .qdigest _
  | .timestamp _ _, .simple _ | .timestamp _ _, .decimal _ _ | .timestamp _ _, .varchar _
  | .timestamp _ _, .char _ | .timestamp _ _, .time _ _ | .timestamp _ _, .interval _
  | .timestamp _ _, .array _ | .timestamp _ _, .map _ _ | .timestamp _ _, .row _
  | .timestamp _ _, .qdigest _
  | .interval _, .simple _ | .interval _, .decimal _ _ | .interval _, .varchar _
  | .interval _, .char _ | .interval _, .time _ _ | .interval _, .timestamp _ _
  | .interval _, .array _ | .interval _, .map _ _ | .interval _, .row _ | .interval _, .qdigest _
  | .array _, .simple _ | .array _, .decimal _ _ | .array _, .varchar _ | .array _, .char _
  | .array _, .time _ _ | .array _, .timestamp _ _ | .array _, .interval _ | .array _, .map _ _
  | .array _, .row _ | .array _, .qdigest _
  | .map _ _, .simple _ | .map _ _, .decimal _ _ | .map _ _, .varchar _ | .map _ _, .char _
  | .map _ _, .time _ _ | .map _ _, .timestamp _ _ | .map _ _, .interval _ | .map _ _, .array _
  | .map _ _, .row _ | .map _ _, .qdigest _
  | .row _, .simple _ | .row _, .decimal _ _ | .row _, .varchar _ | .row _, .char _
  | .row _, .time _ _ | .row _, .timestamp _ _ | .row _, .interval _ | .row _, .array _
  | .row _, .map _ _ | .row _, .qdigest _
  | .qdigest _, .simple _ | .qdigest _, .decimal _ _ | .qdigest _, .varchar _ | .qdigest _, .char _
  | .qdigest _, .time _ _ | .qdigest _, .timestamp _ _ | .qdigest _, .interval _
  | .qdigest _, .array _ | .qdigest _, .map _ _ | .qdigest _, .row _ => isFalse (by simp)
/-- Equality of lists of types. -/
def Ty.decEqList : (a b : List Ty) → Decidable (a = b)
  | [], [] => isTrue rfl
  | [], _ :: _ => isFalse (by simp)
  | _ :: _, [] => isFalse (by simp)
  | a :: as, b :: bs => match Ty.decEq a b, Ty.decEqList as bs with
    | isTrue h, isTrue k => isTrue (by rw [h, k])
    | isFalse h, _ => isFalse (by simp [h])
    | _, isFalse h => isFalse (by simp [h])
end

instance : DecidableEq Ty := Ty.decEq

/-- Python values that can sit in the `parameters` dict. -/
inductive PVal
  | int (i : Int)
  | bool (b : Bool)
  | str (s : Str)
  | dtype (t : Ty)
  | list (l : List PVal)
  | none
  deriving Repr

/-- The Python types named in `FIELDS` (attribute `type`). -/
inductive PKind
  | int | bool | str | dtype | list
  deriving DecidableEq, Repr

/-- `isinstance(value, field.type)`, treeno/datatypes/types.py 97. (`bool` is an `int`.) -/
def PVal.isInstance : PVal → PKind → Bool
  | .int _, .int => true
  | .bool _, .int => true
  | .bool _, .bool => true
  | .str _, .str => true
  | .dtype _, .dtype => true
  | .list _, .list => true
  | _, _ => false

/-- `TypeParameter`, treeno/datatypes/types.py 144-151 (the unused `validator` omitted). -/
structure TypeParam where
  name : Str
  required : Bool
  kind : PKind
  default : Option PVal := Option.none

/-- `FIELDS`, treeno/datatypes/types.py 238-277. -/
def fieldsOf (tn : Str) : List TypeParam :=
  if tn = c% "DECIMAL" then
    [⟨c% "precision", false, .int, some (.int 38)⟩, ⟨c% "scale", false, .int, some (.int 0)⟩]
  else if tn = c% "VARCHAR" then [⟨c% "max_chars", false, .int, Option.none⟩]
  else if tn = c% "CHAR" then [⟨c% "max_chars", false, .int, some (.int 1)⟩]
  else if tn = c% "TIME" then
    [⟨c% "precision", false, .int, Option.none⟩, ⟨c% "timezone", false, .bool, some (.bool false)⟩]
  else if tn = c% "TIMESTAMP" then
    [⟨c% "precision", false, .int, Option.none⟩, ⟨c% "timezone", false, .bool, some (.bool false)⟩]
  else if tn = c% "ARRAY" then [⟨c% "dtype", true, .dtype, Option.none⟩]
  else if tn = c% "MAP" then
    [⟨c% "from_dtype", true, .dtype, Option.none⟩, ⟨c% "to_dtype", true, .dtype, Option.none⟩]
  else if tn = c% "ROW" then [⟨c% "dtypes", true, .list, Option.none⟩]
  else if tn = c% "INTERVAL" then
    [⟨c% "from_interval", true, .str, Option.none⟩, ⟨c% "to_interval", true, .str, Option.none⟩]
  else if tn = c% "QDIGEST" then [⟨c% "dtype", true, .dtype, Option.none⟩]
  else []

/-- Names of the parameterless types. -/
def Simple.name : Simple → Str
  | .boolean => c% "BOOLEAN" | .integer => c% "INTEGER" | .tinyint => c% "TINYINT"
  | .smallint => c% "SMALLINT" | .bigint => c% "BIGINT" | .real => c% "REAL"
  | .double => c% "DOUBLE" | .varbinary => c% "VARBINARY" | .json => c% "JSON"
  | .date => c% "DATE" | .ipaddress => c% "IPADDRESS" | .uuid => c% "UUID"
  | .hyperloglog => c% "HYPERLOGLOG" | .p4hyperloglog => c% "P4HYPERLOGLOG"
  | .tdigest => c% "TDIGEST" | .unknown => c% "UNKNOWN"

/-- All parameterless types. -/
def Simple.all : List Simple :=
  [.boolean, .integer, .tinyint, .smallint, .bigint, .real, .double, .varbinary, .json, .date,
   .ipaddress, .uuid, .hyperloglog, .p4hyperloglog, .tdigest, .unknown]

/-- `ALLOWED_TYPES`, treeno/datatypes/types.py 37-64. -/
def allowedTypes : List Str :=
  [c% "BOOLEAN", c% "INTEGER", c% "TINYINT", c% "SMALLINT", c% "BIGINT", c% "REAL", c% "DOUBLE",
   c% "DECIMAL", c% "VARCHAR", c% "CHAR", c% "VARBINARY", c% "JSON", c% "DATE", c% "TIME",
   c% "TIMESTAMP", c% "INTERVAL", c% "IPADDRESS", c% "UUID", c% "HYPERLOGLOG", c% "P4HYPERLOGLOG",
   c% "QDIGEST", c% "TDIGEST", c% "ARRAY", c% "MAP", c% "ROW", c% "UNKNOWN"]

/-- `DataType.type_name` -/
def Ty.typeName : Ty → Str
  | .simple s => s.name
  | .decimal _ _ => c% "DECIMAL"
  | .varchar _ => c% "VARCHAR"
  | .char _ => c% "CHAR"
  | .time _ _ => c% "TIME"
  | .timestamp _ _ => c% "TIMESTAMP"
  | .interval _ => c% "INTERVAL"
  | .array _ => c% "ARRAY"
  | .map _ _ => c% "MAP"
  | .row _ => c% "ROW"
  | .qdigest _ => c% "QDIGEST"

/-- `from_interval` / `to_interval` of an interval kind. -/
def IvKind.fromS : IvKind → Str
  | .yearToMonth => c% "YEAR"
  | .dayToSecond => c% "DAY"
def IvKind.toS : IvKind → Str
  | .yearToMonth => c% "MONTH"
  | .dayToSecond => c% "SECOND"

/-- `DataType.parameters` (in the order of `FIELDS`). -/
def Ty.params : Ty → List (Str × PVal)
  | .simple _ => []
  | .decimal p s => [(c% "precision", .int p), (c% "scale", .int s)]
  | .varchar n => match n with
    | Option.none => []
    | some n => [(c% "max_chars", .int n)]
  | .char n => [(c% "max_chars", .int n)]
  | .time p tz | .timestamp p tz => match p with
    | Option.none => [(c% "timezone", .bool tz)]
    | some p => [(c% "precision", .int p), (c% "timezone", .bool tz)]
  | .interval k => [(c% "from_interval", .str k.fromS), (c% "to_interval", .str k.toS)]
  | .array t => [(c% "dtype", .dtype t)]
  | .map a b => [(c% "from_dtype", .dtype a), (c% "to_dtype", .dtype b)]
  | .row l => [(c% "dtypes", .list (l.map .dtype))]
  | .qdigest t => [(c% "dtype", .dtype t)]

/-- The loop of `DataType.__attrs_post_init__`, treeno/datatypes/types.py 83-101.
Returns the (mutated) `parameters` dict. -/
def fillFields : List TypeParam → List (Str × PVal) → Except Err (List (Str × PVal))
  | [], ps => .ok ps
  | f :: fs, ps =>
    if !f.required && !hasKey f.name ps then
      match f.default with
      | Option.none => fillFields fs ps                                   -- `continue`, line 90
      | some d =>
        if d.isInstance f.kind then fillFields fs (ps ++ [(f.name, d)]) else .error .assertion
    else match dget f.name ps with
      | Option.none => .error .assertion                                  -- line 93
      | some v => if v.isInstance f.kind then fillFields fs ps else .error .assertion

/-- All elements are data types (`validate_row`, treeno/datatypes/types.py 201-205). -/
def asDtypes : List PVal → Option (List Ty)
  | [] => some []
  | .dtype t :: r => (asDtypes r).map (t :: ·)
  | _ :: _ => Option.none

/-- The `validate_*` functions and the packaging of the validated parameters,
treeno/datatypes/types.py 181-235 and 279-304.  `g` is `parameters.get`. -/
def validateTy (tn : Str) (g : Str → Option PVal) : Except Err Ty :=
  if tn = c% "DECIMAL" then
    match g (c% "precision"), g (c% "scale") with
    | some (.int p), some (.int s) =>
      if 0 ≤ p ∧ p ≤ 38 then .ok (.decimal p s) else .error .assertion
    | _, _ => .error .unmodelled
  else if tn = c% "VARCHAR" then
    match g (c% "max_chars") with
    | Option.none => .ok (.varchar Option.none)
    | some (.int n) => .ok (.varchar (some n))
    | _ => .error .unmodelled
  else if tn = c% "CHAR" then
    match g (c% "max_chars") with
    | some (.int n) => .ok (.char n)
    | _ => .error .unmodelled
  else if tn = c% "TIME" ∨ tn = c% "TIMESTAMP" then
    match g (c% "timezone") with
    | some (.bool tz) =>
      let mk (p : Option Int) : Ty := if tn = c% "TIME" then .time p tz else .timestamp p tz
      match g (c% "precision") with
      | Option.none => .ok (mk Option.none)
      | some (.int p) => if 0 ≤ p ∧ p ≤ 12 then .ok (mk (some p)) else .error .assertion
      | _ => .error .unmodelled
    | _ => .error .unmodelled
  else if tn = c% "ARRAY" then
    match g (c% "dtype") with
    | some (.dtype t) => .ok (.array t)
    | _ => .error .assertion
  else if tn = c% "QDIGEST" then
    match g (c% "dtype") with
    | some (.dtype t) => .ok (.qdigest t)
    | _ => .error .assertion
  else if tn = c% "MAP" then
    match g (c% "from_dtype"), g (c% "to_dtype") with
    | some (.dtype a), some (.dtype b) => .ok (.map a b)
    | _, _ => .error .assertion
  else if tn = c% "ROW" then
    match g (c% "dtypes") with
    | some (.list l) => match asDtypes l with
      | some ts => .ok (.row ts)
      | Option.none => .error .assertion
    | _ => .error .unmodelled
  else if tn = c% "INTERVAL" then
    match g (c% "from_interval"), g (c% "to_interval") with
    | some (.str a), some (.str b) =>
      if a = c% "YEAR" then
        if b = c% "MONTH" then .ok (.interval .yearToMonth) else .error .assertion
      else if a = c% "DAY" then
        if b = c% "SECOND" then .ok (.interval .dayToSecond) else .error .assertion
      else .error .assertion
    | _, _ => .error .unmodelled
  else match Simple.all.find? (fun s => s.name == tn) with
    | some s => .ok (.simple s)
    | Option.none => .error .unmodelled

/-- `DataType(type_name, parameters)`: `DataType.__attrs_post_init__`,
treeno/datatypes/types.py 78-110. -/
def mkType (name : Str) (ps : List (Str × PVal)) : Except Err Ty :=
  let tn := upper name
  if tn ∈ allowedTypes then
    match fillFields (fieldsOf tn) ps with
    | .error e => .error e
    | .ok ps' =>
      if ps'.all (fun p => (fieldsOf tn).any (fun f => f.name == p.1)) then
        validateTy tn (fun k => dget k ps')
      else .error .assertion                                               -- line 105
  else .error .assertion                                                   -- line 80

/-- `unknown()`, treeno/datatypes/builder.py 90-91. -/
def Ty.unknown : Ty := .simple .unknown

/-- `decimal(precision=p, scale=s)`, treeno/datatypes/builder.py 42-43. -/
def mkDecimal (p s : Int) : Except Err Ty :=
  mkType (c% "DECIMAL") [(c% "precision", .int p), (c% "scale", .int s)]

/-- The tail of `emit_timelike`, treeno/datatypes/types.py 165-172. -/
def timeSuffix (p : Option Int) (tz : Bool) : Str :=
  (match p with
    | Option.none => []
    | some p => c% "(" ++ intStr p ++ c% ")") ++
  (if tz then c% " WITH TIME ZONE" else [])

mutual
/-- `DataType.sql`, treeno/datatypes/types.py 112-178 (the options are ignored by the code). -/
def Ty.sql : Ty → Str
  | .simple s => s.name
  | .decimal p s => c% "DECIMAL(" ++ intStr p ++ c% "," ++ intStr s ++ c% ")"
  | .varchar n => match n with
    | Option.none => c% "VARCHAR"
    | some n => c% "VARCHAR(" ++ intStr n ++ c% ")"
  | .char n => c% "CHAR(" ++ intStr n ++ c% ")"
  | .time p tz => c% "TIME" ++ timeSuffix p tz
  | .timestamp p tz => c% "TIMESTAMP" ++ timeSuffix p tz
  | .interval k => c% "INTERVAL " ++ k.fromS ++ c% " TO " ++ k.toS
  | .array t => c% "ARRAY(" ++ t.sql ++ c% ")"
  | .map a b => c% "MAP(" ++ a.sql ++ c% "," ++ b.sql ++ c% ")"
  | .row l => c% "ROW(" ++ join (c% ",") (Ty.sqlList l) ++ c% ")"
  | .qdigest t => c% "QDIGEST(" ++ t.sql ++ c% ")"
/-- `[str(dtype) for dtype in dtypes]` -/
def Ty.sqlList : List Ty → List Str
  | [] => []
  | t :: r => t.sql :: Ty.sqlList r
end

end Treeno
