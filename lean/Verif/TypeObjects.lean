import Verif.Types
/-!
# Data types as objects: `treeno/datatypes/builder.py` and the dict behind a `DataType`

`DataType` keeps the dict `parameters` it is given, and `__attrs_post_init__` writes missing defaults into it
(treeno/datatypes/types.py 74-93).  `mkType` (Types.lean) works on values; here dicts are objects, so that one dict may be
used for several types.

Simplifications: the component types inside of a dict, and the list `dtypes` of ROW, are values and not objects.
-/
set_option autoImplicit false
namespace Treeno

abbrev Dict := List (Str × PVal)

/-- All dicts there are; a reference is an index. -/
abbrev Dicts := List Dict

/-- A `DataType` object: its attributes `type_name` and `parameters`, treeno/datatypes/types.py 66-75. -/
structure TypeObj where
  name : Str
  params : Nat
  deriving DecidableEq, Repr

/-- The loop of `DataType.__attrs_post_init__`, treeno/datatypes/types.py 83-101: the exception, if any, and the dict
that is left. -/
def fillDict : List TypeParam → Dict → Option Err × Dict
  | [], d => (none, d)
  | f :: fs, d =>
    if !f.required && !hasKey f.name d then
      match f.default with
      | none => fillDict fs d
      | some v =>
        if v.isInstance f.kind then fillDict fs (d ++ [(f.name, v)])
        else (some .assertion, d ++ [(f.name, v)])
    else match dget f.name d with
      | none => (some .assertion, d)
      | some v => if v.isInstance f.kind then fillDict fs d else (some .assertion, d)

/-- `DataType(name, parameters=d)` for the dict at `r`, treeno/datatypes/types.py 74-110. -/
def newType (name : Str) (r : Nat) (h : Dicts) : Except Err TypeObj × Dicts :=
  if upper name ∈ allowedTypes then
    match h[r]? with
    | none => (.error .attributeError, h)
    | some d =>
      match fillDict (fieldsOf (upper name)) d with
      | (some e, d') => (.error e, h.set r d')
      | (none, d') =>
        if d'.all (fun p => (fieldsOf (upper name)).any (fun f => f.name == p.1)) then
          match validateTy (upper name) (fun k => dget k d') with
          | .error e => (.error e, h.set r d')
          | .ok _ => (.ok ⟨upper name, r⟩, h.set r d')
        else (.error .assertion, h.set r d')
  else (.error .assertion, h)

/-! ## Builders -/

/-- The functions of treeno/datatypes/builder.py. -/
inductive Builder
  | boolean | tinyint | smallint | integer | bigint | real | double | decimal | varchar | char | varbinary | json | date
  | time | timestamp | interval | array | map | row | unknown | ip | uuid | hll | p4hll | qdigest | tdigest
  deriving DecidableEq, Repr

/-- Does the function take keyword arguments?  treeno/datatypes/builder.py 14-115. -/
def Builder.open_ : Builder → Bool
  | .decimal | .varchar | .char | .time | .timestamp | .interval | .array | .map | .row | .qdigest => true
  | _ => false

/-- The constant of treeno/datatypes/types.py 8-35 that the function hands to `DataType`, treeno/datatypes/builder.py 14-115. -/
def Builder.const : Builder → Str
  | .boolean => c% "BOOLEAN" | .tinyint => c% "TINYINT" | .smallint => c% "SMALLINT" | .integer => c% "INTEGER"
  | .bigint => c% "BIGINT" | .real => c% "REAL" | .double => c% "DOUBLE" | .decimal => c% "DECIMAL"
  | .varchar => c% "VARCHAR" | .char => c% "CHAR" | .varbinary => c% "VARBINARY" | .json => c% "JSON" | .date => c% "DATE"
  | .time => c% "TIME" | .timestamp => c% "TIMESTAMP" | .interval => c% "INTERVAL" | .array => c% "ARRAY" | .map => c% "MAP"
  | .row => c% "ROW" | .unknown => c% "UNKNOWN" | .ip => c% "IPADDRESS" | .uuid => c% "UUID" | .hll => c% "HYPERLOGLOG"
  | .p4hll => c% "P4HYPERLOGLOG" | .qdigest => c% "QDIGEST" | .tdigest => c% "TDIGEST"

/-- `builder(**kwargs)`, treeno/datatypes/builder.py 14-115: `kwargs` is a new dict, and so is the one of
`attr.ib(factory=dict)` that the functions without arguments use (treeno/datatypes/types.py 75). -/
def Builder.call (b : Builder) (kwargs : Dict) (h : Dicts) : Except Err TypeObj × Dicts :=
  if b.open_ then newType b.const h.length (h ++ [kwargs])
  else if kwargs.isEmpty then newType b.const h.length (h ++ [[]])
  else (.error .typeError, h)

/-! ## Printing -/

/-- `if value:` -/
def PVal.truthy : PVal → Bool
  | .int i => i != 0
  | .bool b => b
  | .str s => !s.isEmpty
  | .dtype _ => true
  | .list l => !l.isEmpty
  | .none => false

/-- `str(value)`; a list is not printed by a type that was built. -/
def PVal.text : PVal → Except Err Str
  | .int i => .ok (intStr i)
  | .bool b => .ok (if b then c% "True" else c% "False")
  | .str s => .ok s
  | .dtype t => .ok t.sql
  | .list _ => .error .unmodelled
  | .none => .ok (c% "None")

/-- `parameters[key]` -/
def Dict.at_ (d : Dict) (k : Str) : Except Err PVal :=
  match dget k d with
  | some v => .ok v
  | none => .error .keyError

/-- `emit_timelike`, treeno/datatypes/types.py 162-172. -/
def emitTimelike (name : Str) (d : Dict) : Except Err Str := do
  let p ← (match dget (c% "precision") d with
    | none | some .none => .ok []
    | some v => do
      let t ← v.text
      .ok (c% "(" ++ t ++ c% ")") : Except Err Str)
  .ok (name ++ p ++ (if ((dget (c% "timezone") d).getD .none).truthy then c% " WITH TIME ZONE" else []))

/-- `emit_interval`, treeno/datatypes/types.py 154-159. -/
def emitInterval (name : Str) (d : Dict) : Except Err Str := do
  let a ← d.at_ (c% "from_interval")
  let b ← d.at_ (c% "to_interval")
  let a ← a.text
  let b ← b.text
  .ok (name ++ c% " " ++ a ++ c% " TO " ++ b)

def PVal.texts : List PVal → Except Err (List Str)
  | [] => .ok []
  | v :: vs => do
    let t ← v.text
    let ts ← PVal.texts vs
    .ok (t :: ts)

/-- `emit_row`, treeno/datatypes/types.py 175-178. -/
def emitRow (d : Dict) : Except Err Str := do
  match ← d.at_ (c% "dtypes") with
  | .list l => do
    let ts ← PVal.texts l
    .ok (c% "ROW(" ++ join (c% ",") ts ++ c% ")")
  | _ => .error .unmodelled

/-- The loop of `DataType.sql`, treeno/datatypes/types.py 130-134. -/
def fieldTexts (d : Dict) : List TypeParam → Except Err (List Str)
  | [] => .ok []
  | f :: fs =>
    match dget f.name d with
    | none => .error .assertion
    | some v => do
      let t ← v.text
      let ts ← fieldTexts d fs
      .ok (t :: ts)

/-- `DataType.sql`, treeno/datatypes/types.py 112-137. -/
def TypeObj.sql (h : Dicts) (o : TypeObj) : Except Err Str :=
  match h[o.params]? with
  | none => .error .attributeError
  | some d =>
    if o.name = c% "TIMESTAMP" ∨ o.name = c% "TIME" then emitTimelike o.name d
    else if o.name = c% "INTERVAL" then emitInterval o.name d
    else if o.name = c% "ROW" then emitRow d
    else if d.isEmpty then .ok o.name
    else do
      let ts ← fieldTexts d (fieldsOf o.name)
      .ok (o.name ++ c% "(" ++ join (c% ",") ts ++ c% ")")

end Treeno
