import Verif.Types
/-!
# `treeno/datatypes/conversions.py`
-/
namespace Treeno

/-- `INTEGRAL_TYPES`, treeno/datatypes/conversions.py 47. -/
def Ty.isIntegral : Ty → Bool
  | .simple .integer | .simple .bigint | .simple .smallint | .simple .tinyint => true
  | _ => false

/-- `FLOAT_TYPES`, treeno/datatypes/conversions.py 49. -/
def Ty.isFloat : Ty → Bool
  | .simple .real | .simple .double => true
  | _ => false

/-- `dtype.type_name == DECIMAL` -/
def Ty.isDecimal : Ty → Bool
  | .decimal _ _ => true
  | _ => false

/-- `NUMERIC_TYPES`, treeno/datatypes/conversions.py 51. -/
def Ty.isNumeric (t : Ty) : Bool := t.isIntegral || t.isFloat || t.isDecimal

/-- `STRING_TYPES`, treeno/datatypes/conversions.py 53. -/
def Ty.isString : Ty → Bool
  | .char _ | .varchar _ => true
  | _ => false

/-- `HLL_TYPES`, treeno/datatypes/conversions.py 57. -/
def Ty.isHll : Ty → Bool
  | .simple .hyperloglog | .simple .p4hyperloglog => true
  | _ => false

/-- `DATETIME_TYPES`, treeno/datatypes/conversions.py 59. -/
def Ty.isDatetime : Ty → Bool
  | .simple .date | .time _ _ | .timestamp _ _ => true
  | _ => false

/-- `INTEGRAL_DECIMAL_PRECISION`, treeno/datatypes/conversions.py 48. -/
def integralPrecision : Ty → Except Err Int
  | .simple .tinyint => .ok 3
  | .simple .smallint => .ok 5
  | .simple .integer => .ok 10
  | .simple .bigint => .ok 19
  | _ => .error .keyError

/-- `MAX_CHAR_LENGTH`, treeno/datatypes/conversions.py 55. -/
def maxCharLength : Int := 65536

/-- `promote_varchar_to_char`, treeno/datatypes/conversions.py 183-188.
(`char()` is CHAR(1), the default of the `max_chars` parameter.)
Simplification: called only with VARCHAR types by the modelled callers. -/
def promoteVarcharToChar : Ty → Except Err Ty
  | .varchar none => mkType (c% "CHAR") []
  | .varchar (some n) => mkType (c% "CHAR") [(c% "max_chars", .int (min maxCharLength n))]
  | _ => .error .unmodelled

/-- `promote_integral_to_decimal`, treeno/datatypes/conversions.py 191-194. -/
def promoteIntegralToDecimal (t : Ty) : Except Err Ty := do
  mkDecimal (← integralPrecision t) 0

/-- `common_integral`, treeno/datatypes/conversions.py 197-208. -/
def commonIntegral (t1 t2 : Ty) : Except Err Ty :=
  if t1.isIntegral && t2.isIntegral then do
    let p1 ← integralPrecision t1
    let p2 ← integralPrecision t2
    .ok (if p1 > p2 then t1 else t2)
  else .error .assertion

/-- `common_float`, treeno/datatypes/conversions.py 211-216. -/
def commonFloat (t1 t2 : Ty) : Except Err Ty :=
  if t1.isFloat && t2.isFloat then
    .ok (if t1 = .simple .double then t1 else t2)
  else .error .assertion

/-- `common_decimal`, treeno/datatypes/conversions.py 219-226. -/
def commonDecimal : Ty → Ty → Except Err Ty
  | .decimal p1 s1, .decimal p2 s2 =>
    let scale := max s1 s2
    mkDecimal (max (p1 - s1) (p2 - s2) + scale) scale
  | _, _ => .error .assertion

/-- `common_varchar`, treeno/datatypes/conversions.py 229-239. -/
def commonVarchar : Ty → Ty → Except Err Ty
  | .varchar (some a), .varchar (some b) =>
    mkType (c% "VARCHAR") [(c% "max_chars", .int (max a b))]
  | .varchar _, .varchar _ => mkType (c% "VARCHAR") []
  | _, _ => .error .assertion

/-- `common_char`, treeno/datatypes/conversions.py 242-252. (CHAR always has `max_chars`.) -/
def commonChar : Ty → Ty → Except Err Ty
  | .char a, .char b => mkType (c% "CHAR") [(c% "max_chars", .int (max a b))]
  | _, _ => .error .assertion

/-- `common_timestamp` and `common_time`, treeno/datatypes/conversions.py 284-303: reads `precision`
of both (KeyError when absent) and then passes the undeclared keyword `timezoned`. -/
def commonTimelike (tn : Str) (p1 : Option Int) (z1 : Bool) (p2 : Option Int) (z2 : Bool) :
    Except Err Ty :=
  match p1, p2 with
  | some p1, some p2 =>
    mkType tn [(c% "timezoned", .bool (z1 || z2)), (c% "precision", .int (max p1 p2))]
  | _, _ => .error .keyError

/-- `common_interval`, treeno/datatypes/conversions.py 306-316. -/
def commonInterval (k1 k2 : IvKind) : Except Err Ty :=
  if k1.fromS = k2.fromS ∧ k1.toS = k2.toS then .ok (.interval k1) else .ok .unknown

/-- `common_datetime`, treeno/datatypes/conversions.py 101-111. -/
def commonDatetime (t1 t2 : Ty) : Except Err Ty :=
  if t1.isDatetime && t2.isDatetime then
    match t1, t2 with
    | .simple .date, .time _ _ => .ok .unknown
    | .time _ _, .simple .date => .ok .unknown
    | .timestamp p z, _ => .ok (.timestamp p z)
    | _, t2 => .ok t2
  else .error .assertion

/-- `common_hll`, treeno/datatypes/conversions.py 114-120. -/
def commonHll (t1 t2 : Ty) : Except Err Ty :=
  if t1.isHll && t2.isHll then .ok (.simple .hyperloglog) else .error .assertion

/-- `dtype.type_name == CHAR` -/
def Ty.isChar : Ty → Bool
  | .char _ => true
  | _ => false

/-- `common_string`, treeno/datatypes/conversions.py 123-144. -/
def commonString (t1 t2 : Ty) : Except Err Ty :=
  if t1.isString && t2.isString then
    if t1.isChar || t2.isChar then do
      let a ← if t1.isChar then .ok t1 else promoteVarcharToChar t1
      let b ← if t2.isChar then .ok t2 else promoteVarcharToChar t2
      commonChar a b
    else commonVarchar t1 t2
  else .error .assertion

/-- `common_numeric`, treeno/datatypes/conversions.py 147-180. -/
def commonNumeric (t1 t2 : Ty) : Except Err Ty :=
  if t1.isNumeric && t2.isNumeric then
    if t1.isIntegral then
      if t2.isIntegral then commonIntegral t1 t2
      else if t2.isFloat then .ok t2
      else do commonDecimal (← promoteIntegralToDecimal t1) t2
    else if t1.isFloat then
      if t2.isFloat then commonFloat t1 t2 else .ok t1
    else
      if t2.isIntegral then do commonDecimal t1 (← promoteIntegralToDecimal t2)
      else if t2.isFloat then .ok t2
      else .error .typeError
  else .error .assertion

mutual
/-- `common_supertype`, treeno/datatypes/conversions.py 73-90.  Lines 79-81 evaluate
`common_same_type` (which may raise) and throw the result away. -/
def commonSupertype (t1 t2 : Ty) : Except Err Ty :=
  if t1.typeName = t2.typeName then
    if t1 = t2 then .ok t1
    else match t1, t2 with
      | .row l1, .row l2 => do let _ ← commonRow l1 l2; .ok .unknown
      | .array a, .array b => do let _ ← commonSupertype a b; .ok .unknown
      | .map a b, .map c d => do
        let _ ← commonSupertype a c
        let _ ← commonSupertype b d
        .ok .unknown
      | .decimal p1 s1, .decimal p2 s2 => do
        let _ ← commonDecimal (.decimal p1 s1) (.decimal p2 s2); .ok .unknown
      | .varchar a, .varchar b => do let _ ← commonVarchar (.varchar a) (.varchar b); .ok .unknown
      | .char a, .char b => do let _ ← commonChar (.char a) (.char b); .ok .unknown
      | .time p1 z1, .time p2 z2 => do
        let _ ← commonTimelike (c% "TIME") p1 z1 p2 z2; .ok .unknown
      | .timestamp p1 z1, .timestamp p2 z2 => do
        let _ ← commonTimelike (c% "TIMESTAMP") p1 z1 p2 z2; .ok .unknown
      | .interval k1, .interval k2 => do let _ ← commonInterval k1 k2; .ok .unknown
      | _, _ => .ok .unknown
  else if t1.isNumeric then commonNumeric t1 t2
  else if t1.isString then commonString t1 t2
  else if t1.isHll then commonHll t1 t2
  else if t1.isDatetime then commonDatetime t1 t2
  else .error .typeError
/-- The loop of `common_row`, treeno/datatypes/conversions.py 259-261 (`zip` truncates). -/
def commonRow : List Ty → List Ty → Except Err (List Ty)
  | a :: as, b :: bs => do
    let t ← commonSupertype a b
    let r ← commonRow as bs
    .ok (t :: r)
  | _, _ => .ok []
end

/-- `common_same_type`, treeno/datatypes/conversions.py 93-98, dispatching to 219-316. -/
def commonSameType (t1 t2 : Ty) : Except Err Ty :=
  match t1, t2 with
  | .decimal _ _, .decimal _ _ => commonDecimal t1 t2
  | .varchar _, .varchar _ => commonVarchar t1 t2
  | .char _, .char _ => commonChar t1 t2
  | .row l1, .row l2 => do .ok (.row (← commonRow l1 l2))
  | .array a, .array b => do .ok (.array (← commonSupertype a b))
  | .map a b, .map c d => do
    let f ← commonSupertype a c
    let t ← commonSupertype b d
    .ok (.map f t)
  | .time p1 z1, .time p2 z2 => commonTimelike (c% "TIME") p1 z1 p2 z2
  | .timestamp p1 z1, .timestamp p2 z2 => commonTimelike (c% "TIMESTAMP") p1 z1 p2 z2
  | .interval k1, .interval k2 => commonInterval k1 k2
  | _, _ => .error .assertion

/-- `get_arithmetic_type`, treeno/datatypes/conversions.py 62-70. -/
def arithmeticType (t1 t2 : Ty) : Except Err Ty :=
  if t1 = t2 then .ok t1
  else if t1.typeName = t2.typeName then commonSameType t1 t2
  else if t1.isNumeric && t2.isNumeric then commonNumeric t1 t2
  else .ok .unknown

end Treeno
