import Verif.Types
/-!
# When a value of one type can be widened to another type without loss of content
-/
namespace Treeno.Spec
open Treeno

/-- Decimal digits needed by the integral types. -/
def intDigits : Ty → Option Int
  | .simple .tinyint => some 3
  | .simple .smallint => some 5
  | .simple .integer => some 10
  | .simple .bigint => some 19
  | _ => none

/-- `Widens a c`: every value of `a` is also a value of `c` after implicit conversion
(integral to wider integral, to a decimal with enough integral digits or to an approximate type;
decimal to a decimal with at least as many integral and fractional digits; shorter to longer text;
bounded varchar to a char of at least that length; dates and times to timestamps; the sparse to the
dense HyperLogLog; containers component by component). -/
inductive Widens : Ty → Ty → Prop
  | refl (a) : Widens a a
  | int {a b m n} : intDigits a = some m → intDigits b = some n → m ≤ n → Widens a b
  | intDec {a m p s} : intDigits a = some m → 0 ≤ s → m ≤ p - s → Widens a (.decimal p s)
  | intReal {a m} : intDigits a = some m → Widens a (.simple .real)
  | intDouble {a m} : intDigits a = some m → Widens a (.simple .double)
  | decReal {p s} : Widens (.decimal p s) (.simple .real)
  | decDouble {p s} : Widens (.decimal p s) (.simple .double)
  | realDouble : Widens (.simple .real) (.simple .double)
  | dec {p s q r} : s ≤ r → p - s ≤ q - r → Widens (.decimal p s) (.decimal q r)
  | varchar {a b} : a ≤ b → Widens (.varchar (some a)) (.varchar (some b))
  | varcharMax {a} : Widens (.varchar a) (.varchar none)
  | char {a b} : a ≤ b → Widens (.char a) (.char b)
  | varcharChar {a b} : a ≤ b → Widens (.varchar (some a)) (.char b)
  | dateTimestamp {p z} : Widens (.simple .date) (.timestamp p z)
  | timeTimestamp {p z p' z'} : Widens (.time p z) (.timestamp p' z')
  | hll : Widens (.simple .p4hyperloglog) (.simple .hyperloglog)
  | array {a b} : Widens a b → Widens (.array a) (.array b)
  | map {a b c d} : Widens a b → Widens c d → Widens (.map a c) (.map b d)
  | rowNil : Widens (.row []) (.row [])
  | rowCons {a b l m} : Widens a b → Widens (.row l) (.row m) → Widens (.row (a :: l)) (.row (b :: m))

/-- A text pair whose varchar side does not fit any char type: unbounded, or longer than the
longest char. -/
def LongVarcharWithChar : Ty → Ty → Prop
  | .varchar n, .char _ | .char _, .varchar n => ∀ k, n = some k → 65536 < k
  | _, _ => False

end Treeno.Spec
