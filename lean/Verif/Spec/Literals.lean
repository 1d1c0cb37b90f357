import Verif.Spec.Numeric
import Verif.Spec.Tidy
/-!
# The values that literals denote
-/
set_option autoImplicit false
namespace Treeno.Spec

/-- The number written with these digits. -/
def number : Str → Nat
  | [] => 0
  | c :: s => (c.toNat - '0'.toNat) * 10 ^ s.length + number s

/-- The number written `i.f`. -/
def written (i f : Str) : ℚ := number i + number f / 10 ^ f.length

/-- The number that a `decimal.Decimal` holds. -/
def decimalValue (d : Dec) : ℚ := (if d.neg then -1 else 1) * d.coeff * (10 : ℚ) ^ d.exp

/-- The units of an interval. -/
def units : List Str := [c% "YEAR", c% "MONTH", c% "DAY", c% "HOUR", c% "MINUTE", c% "SECOND"]

/-- A sign, or none. -/
inductive Sign
  | none | plus | minus
  deriving DecidableEq, Repr

def Sign.text : Sign → Str
  | .none => []
  | .plus => c% "+"
  | .minus => c% "-"

/-- Two signs together. -/
def Sign.mul (a b : Sign) : Str := if (a = .minus) = (b = .minus) then [] else c% "-"

end Treeno.Spec
