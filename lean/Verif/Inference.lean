import Verif.Types
/-!
# `treeno/datatypes/inference.py`
-/
namespace Treeno

/-- A finite `decimal.Decimal`: `(-1)^neg * coeff * 10^exp`.  (Infinities and NaNs are outside the
model.) -/
structure Dec where
  neg : Bool
  coeff : Nat
  exp : Int
  deriving DecidableEq, Repr

/-- `"%+d" % n` -/
def plusD (n : Int) : Str := if n < 0 then intStr n else '+' :: intStr n

/-- `Decimal.__str__` (CPython `_pydecimal.py`, `Decimal.__str__` with `eng=False`). -/
def Dec.str (d : Dec) : Str :=
  let digits := natStr d.coeff
  let len : Int := digits.length
  let leftdigits := d.exp + len
  let dotplace := if d.exp ≤ 0 ∧ leftdigits > -6 then leftdigits else 1
  let (intpart, fracpart) :=
    if dotplace ≤ 0 then
      (c% "0", c% "." ++ List.replicate (-dotplace).toNat '0' ++ digits)
    else if dotplace ≥ len then
      (digits ++ List.replicate (dotplace - len).toNat '0', [])
    else (digits.take dotplace.toNat, c% "." ++ digits.drop dotplace.toNat)
  let expS := if leftdigits = dotplace then [] else 'E' :: plusD (leftdigits - dotplace)
  (if d.neg then c% "-" else []) ++ intpart ++ fracpart ++ expS

/-- The scalar Python values a `Literal` can hold.  A float is represented by its `repr` text
(simplification: no float arithmetic is modelled). -/
inductive Scalar
  | bool (b : Bool)
  | int (n : Int)
  | float (repr : Str)
  | dec (d : Dec)
  | str (s : Str)
  deriving DecidableEq, Repr

/-- `infer_integral`, treeno/datatypes/inference.py 46-47. -/
def inferIntegral (v : Int) : Ty :=
  if -(0x7FFFFFFF + 1) ≤ v ∧ v ≤ 0x7FFFFFFF then .simple .integer else .simple .bigint

/-- `infer_decimal` on the text of the decimal, treeno/datatypes/inference.py 50-63. -/
def inferDecimalText (s : Str) : Except Err Ty :=
  if '.' ∉ s then mkDecimal s.length 0
  else if s.count '.' = 1 then
    mkDecimal (s.length - 1) (s.length - (s.idxOf '.' : Int) - 1)
  else .error .assertion

/-- `infer_decimal`, treeno/datatypes/inference.py 50-63. -/
def inferDecimal (d : Dec) : Except Err Ty := inferDecimalText d.str

/-- `infer_char`, treeno/datatypes/inference.py 42-43. -/
def inferChar (s : Str) : Except Err Ty := mkType (c% "CHAR") [(c% "max_chars", .int s.length)]

/-- `infer_type`, treeno/datatypes/inference.py 20-39. -/
def inferType : Scalar → Except Err Ty
  | .bool _ => mkType (c% "BOOLEAN") []
  | .int n => .ok (inferIntegral n)
  | .float _ => mkType (c% "DOUBLE") []
  | .dec d => inferDecimal d
  | .str s => mkType (c% "VARCHAR") [(c% "max_chars", .int s.length)]

/-- The text after the last occurrence of `c` (all of it when there is none):
`s.rsplit(c)[-1]`. -/
def afterLast (c : Char) (s : Str) : Str := (s.reverse.takeWhile (· != c)).reverse

/-- `infer_timelike_precision`, treeno/datatypes/inference.py 66-72. -/
def inferTimelikePrecision (s : Str) : Int :=
  if '.' ∉ s then 0 else ((afterLast '.' s).takeWhile (· != ' ')).length

example : Dec.str ⟨false, 15, -1⟩ = c% "1.5" := by decide
example : Dec.str ⟨true, 0, -2⟩ = c% "-0.00" := by decide
example : Dec.str ⟨false, 1, -7⟩ = c% "1E-7" := by decide
example : Dec.str ⟨false, 1, 3⟩ = c% "1E+3" := by decide
example : Dec.str ⟨false, 123, 0⟩ = c% "123" := by decide
example : Dec.str ⟨false, 15, 9⟩ = c% "1.5E+10" := by decide
example : Dec.str ⟨false, 1, -6⟩ = c% "0.000001" := by decide

end Treeno
