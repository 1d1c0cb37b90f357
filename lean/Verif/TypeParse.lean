import Verif.Tokens
import Verif.Types
/-!
# Reading data types: rule `type_` of the grammar and its visitor

SqlBase.g4 652-672, treeno/builder/convert.py 493-607.

The parser is deterministic, with the choices ANTLR makes on texts of the language (first viable
alternative).  Simplification: whether `rowField` starts with a name is decided from the next three
tokens, and `ROW(` followed by an integer is the generic alternative; texts where more lookahead
would matter hold a named row field or a ROW with integer parameters, both rejected by the visitor.
-/
namespace Treeno

mutual
/-- Parse trees of `type_`, SqlBase.g4 652-664. -/
inductive CTy
  | row (fields : List CField)
  | interval (from_ : Tok) (to : Option Tok)
  | datetime (timestamp : Bool) (precision : Option CTParam) (zone : Option Bool)
  | doublePrecision
  | legacyArray (t : CTy)
  | legacyMap (k v : CTy)
  | arrayOf (t : CTy) (size : Option Tok)
  | generic (name : Tok) (params : List CTParam)
/-- `rowField`, SqlBase.g4 666-668. -/
inductive CField
  | mk (name : Option Tok) (t : CTy)
/-- `typeParameter`, SqlBase.g4 670-672. -/
inductive CTParam
  | int (t : Tok)
  | ty (t : CTy)
end

/-- `intervalField`, SqlBase.g4 644-646. -/
def intervalFields : List Str :=
  [c% "YEAR", c% "MONTH", c% "DAY", c% "HOUR", c% "MINUTE", c% "SECOND"]

/-- The token is an `intervalField`. -/
def Tok.isIvField (t : Tok) : Bool := t.kind == .kw && intervalFields.contains (upper t.text)

/-! ## The parser -/

/-- The mutually recursive parts of the parser. -/
inductive TNT
  | ty                      -- `type_`
  | arrays (acc : CTy)      -- the loop `type_ ARRAY (…)?` of the left-recursive rule
  | fields                  -- `rowField (',' rowField)* ')'`
  | params                  -- `typeParameter (',' typeParameter)* ')'`

/-- What each part returns. -/
abbrev TNT.Out : TNT → Type
  | .ty | .arrays _ => CTy
  | .fields => List CField
  | .params => List CTParam

/-- A family of parsers. -/
abbrev TRec := (nt : TNT) → List Tok → Option (nt.Out × List Tok)

/-- `typeParameter`, SqlBase.g4 670-672. -/
def pTypeParam (r : TRec) (ts : List Tok) : Option (CTParam × List Tok) := do
  match pKind .int ts with
  | some (t, ts) => some (.int t, ts)
  | none =>
    let (t, ts) ← r .ty ts
    some (.ty t, ts)

/-- `('(' precision = typeParameter ')')?` -/
def pPrecision (r : TRec) (ts : List Tok) : Option (Option CTParam × List Tok) := do
  match sym (c% "(") ts with
  | none => some (none, ts)
  | some ts =>
    let (p, ts) ← pTypeParam r ts
    let ts ← sym (c% ")") ts
    some (some p, ts)

/-- `(WITHOUT TIME ZONE)?` or `WITH TIME ZONE` -/
def pZone (ts : List Tok) : Option (Option Bool × List Tok) := do
  match kw (c% "WITH") ts with
  | some ts =>
    let ts ← kw (c% "TIME") ts
    let ts ← kw (c% "ZONE") ts
    some (some true, ts)
  | none =>
    match kw (c% "WITHOUT") ts with
    | some ts =>
      let ts ← kw (c% "TIME") ts
      let ts ← kw (c% "ZONE") ts
      some (some false, ts)
    | none => some (none, ts)

/-- Read an `intervalField`. -/
def pIvField : List Tok → Option (Tok × List Tok)
  | t :: ts => if t.isIvField then some (t, ts) else none
  | [] => none

/-- `(TO to=intervalField)?` -/
def pIvTo (ts : List Tok) : Option (Option Tok × List Tok) := do
  match kw (c% "TO") ts with
  | none => some (none, ts)
  | some ts =>
    let (t, ts) ← pIvField ts
    some (some t, ts)

/-- The second token is an integer. -/
def secondInt : List Tok → Bool
  | _ :: u :: _ => u.kind == .int
  | _ => false

/-- The next token is an `intervalField`. -/
def nextIvField : List Tok → Bool
  | u :: _ => u.isIvField
  | [] => false

/-- The alternatives of `type_` that do not start with `type_`. -/
def pTypeBase (r : TRec) (ts : List Tok) : Option (CTy × List Tok) := do
  match ts with
  | [] => none
  | t :: ts' =>
    if t.isKw (c% "ROW") && nextSym (c% "(") ts' && !secondInt ts' then
      let (fs, ts) ← r .fields (ts'.drop 1)
      some (.row fs, ts)
    else if t.isKw (c% "INTERVAL") && nextIvField ts' then
      let (f, ts) ← pIvField ts'
      let (to, ts) ← pIvTo ts
      some (.interval f to, ts)
    else if t.isKw (c% "TIMESTAMP") || t.isKw (c% "TIME") then
      let (p, ts) ← pPrecision r ts'
      let (z, ts) ← pZone ts
      some (.datetime (t.isKw (c% "TIMESTAMP")) p z, ts)
    else if t.isKw (c% "DOUBLE") && nextKw (c% "PRECISION") ts' then
      some (.doublePrecision, ts'.drop 1)
    else if t.isKw (c% "ARRAY") && nextSym (c% "<") ts' then
      let (e, ts) ← r .ty (ts'.drop 1)
      let ts ← sym (c% ">") ts
      some (.legacyArray e, ts)
    else if t.isKw (c% "MAP") && nextSym (c% "<") ts' then
      let (k, ts) ← r .ty (ts'.drop 1)
      let ts ← sym (c% ",") ts
      let (v, ts) ← r .ty ts
      let ts ← sym (c% ">") ts
      some (.legacyMap k v, ts)
    else if t.isIdent then
      match sym (c% "(") ts' with
      | none => some (.generic t [], ts')
      | some ts =>
        let (ps, ts) ← r .params ts
        some (.generic t ps, ts)
    else none

/-- The left-recursive alternative `type_ ARRAY ('[' INTEGER_VALUE ']')?`. -/
def pArrays (r : TRec) (acc : CTy) (ts : List Tok) : Option (CTy × List Tok) := do
  match kw (c% "ARRAY") ts with
  | none => some (acc, ts)
  | some ts =>
    match sym (c% "[") ts with
    | none => r (.arrays (.arrayOf acc none)) ts
    | some ts =>
      let (n, ts) ← pKind .int ts
      let ts ← sym (c% "]") ts
      r (.arrays (.arrayOf acc (some n))) ts

/-- Does a `rowField` start with a name? -/
def namedField (ts : List Tok) : Bool :=
  match ts with
  | t :: u :: rest =>
    t.isIdent && u.isIdent &&
      !(t.isKw (c% "INTERVAL") && u.isIvField) &&
      !(t.isKw (c% "DOUBLE") && u.isKw (c% "PRECISION")) &&
      !((t.isKw (c% "TIME") || t.isKw (c% "TIMESTAMP")) && u.isKw (c% "WITHOUT")) &&
      !(u.isKw (c% "ARRAY") && !(nextSym (c% "(") rest || nextSym (c% "<") rest))
  | _ => false

/-- `rowField`, SqlBase.g4 666-668. -/
def pField (r : TRec) (ts : List Tok) : Option (CField × List Tok) := do
  if namedField ts then
    let (n, ts) ← pIdent ts
    let (t, ts) ← r .ty ts
    some (.mk (some n) t, ts)
  else
    let (t, ts) ← r .ty ts
    some (.mk none t, ts)

/-- One step of every parser in terms of the others. -/
def tStep (r : TRec) : TRec := fun nt => match nt with
  | .ty => fun ts => do
    let (b, ts) ← pTypeBase r ts
    r (.arrays b) ts
  | .arrays acc => pArrays r acc
  | .fields => fun ts => do
    let (f, ts) ← pField r ts
    match sym (c% ",") ts with
    | some ts =>
      let (fs, ts) ← r .fields ts
      some (f :: fs, ts)
    | none =>
      let ts ← sym (c% ")") ts
      some ([f], ts)
  | .params => fun ts => do
    let (p, ts) ← pTypeParam r ts
    match sym (c% ",") ts with
    | some ts =>
      let (ps, ts) ← r .params ts
      some (p :: ps, ts)
    | none =>
      let ts ← sym (c% ")") ts
      some ([p], ts)

/-- The parsers, with at most `n` nested calls. -/
def tParser : Nat → TRec
  | 0 => fun _ _ => none
  | n + 1 => tStep (tParser n)

/-- `type_`: three calls per token are more than the parser ever nests. -/
def pType (ts : List Tok) : Option (CTy × List Tok) := tParser (3 * ts.length + 3) .ty ts

/-! ## The visitor -/

/-- `dict(zip(FIELDS[name], values))`, treeno/builder/convert.py 499-502. -/
def zipFields (name : Str) (vals : List PVal) : List (Str × PVal) :=
  (vals.zip (fieldsOf name)).map fun p => (p.2.name, p.1)

mutual
/-- `visitRowType`, `visitIntervalType`, `visitDateTimeType`, `visitDoublePrecisionType`,
`visitLegacyArrayType`, `visitLegacyMapType`, `visitArrayType`, `visitGenericType`,
treeno/builder/convert.py 493-607. -/
def CTy.conv : CTy → Except Err Ty
  | .row fs => do
    let ts ← CField.convs fs
    mkType (c% "ROW") [(c% "dtypes", .list (ts.map .dtype))]
  | .interval f to => mkType (c% "INTERVAL")
    ((c% "from_interval", .str f.text) :: (match to with
      | none => []
      | some t => [(c% "to_interval", .str t.text)]))
  | .datetime ts p z => do
    let ps ← CTParam.convOpt p
    mkType (if ts then c% "TIMESTAMP" else c% "TIME")
      (ps ++ [(c% "timezone", .bool (z == some true))])
  | .doublePrecision => .ok (.simple .double)
  | .legacyArray _ => .error .notImplemented
  | .legacyMap _ _ => .error .notImplemented
  | .arrayOf t n => do
    if n.isSome then .error .assertion
    let d ← t.conv
    mkType (c% "ARRAY") [(c% "dtype", .dtype d)]
  | .generic n ps => do
    let vs ← CTParam.convs ps
    let name ← identText n
    mkType (upper name) (zipFields (upper name) vs)
/-- `visitRowField`, treeno/builder/convert.py 511-515. -/
def CField.conv : CField → Except Err Ty
  | .mk (some _) _ => .error .assertion
  | .mk none t => t.conv
/-- `visitTypeParameter`, treeno/builder/convert.py 568-575. -/
def CTParam.conv : CTParam → Except Err PVal
  | .int t => .ok (.int (digitsVal t.text))
  | .ty t => do .ok (.dtype (← t.conv))
/-- `if ctx.precision: parameters["precision"] = …`, treeno/builder/convert.py 584-585. -/
def CTParam.convOpt : Option CTParam → Except Err (List (Str × PVal))
  | none => .ok []
  | some p => do .ok [(c% "precision", ← p.conv)]
def CField.convs : List CField → Except Err (List Ty)
  | [] => .ok []
  | f :: r => do
    let t ← f.conv
    let ts ← CField.convs r
    .ok (t :: ts)
def CTParam.convs : List CTParam → Except Err (List PVal)
  | [] => .ok []
  | f :: r => do
    let t ← f.conv
    let ts ← CTParam.convs r
    .ok (t :: ts)
end

/-- `standaloneType` (SqlBase.g4 33-35) of a text, then `visitStandaloneType`
(treeno/builder/convert.py 185-188): what `type_from_sql` (112-113) returns. -/
def typeFromSql (s : Str) : Except Err Ty :=
  match pType (toks s) with
  | some (c, []) => c.conv
  | _ => .error .syntax

example : typeFromSql (c% "ROW(BIGINT, decimal(10,2) ARRAY, MAP(DATE, TIME(3) WITH TIME ZONE))") =
    .ok (.row [.simple .bigint, .array (.decimal 10 2), .map (.simple .date) (.time (some 3) true)]) := by
  rfl
example : typeFromSql (c% "INTERVAL DAY TO SECOND") = .ok (.interval .dayToSecond) := by rfl
example : typeFromSql (c% "double precision array") = .ok (.array (.simple .double)) := by rfl
example : typeFromSql (c% "ROW(x BIGINT)") = .error .assertion := by rfl
example : typeFromSql (c% "ARRAY<BIGINT>") = .error .notImplemented := by rfl
example : typeFromSql (c% "BIGINT)") = .error .syntax := by rfl
-- extra parameters are dropped silently
example : typeFromSql (c% "BIGINT(3)") = .ok (.simple .bigint) := by rfl

end Treeno
