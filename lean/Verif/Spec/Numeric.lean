import Verif.Types
import Mathlib.Algebra.Order.Field.Power
import Mathlib.Algebra.Order.Field.Rat
/-!
# Which numbers a numeric type can hold
-/
namespace Treeno.Spec
open Treeno

/-- Bit width of the integral types (Trino documentation). -/
def intBits : Ty → Option Nat
  | .simple .tinyint => some 8
  | .simple .smallint => some 16
  | .simple .integer => some 32
  | .simple .bigint => some 64
  | _ => none

/-- Significand bits of the approximate types. -/
def approxBits : Ty → Option Nat
  | .simple .real => some 24
  | .simple .double => some 53
  | _ => none

/-- The exact values of a numeric type: two's complement integers, and for DECIMAL(p,s) the numbers
`m / 10^s` with at most `p` digits in `m`. -/
def Holds (t : Ty) (q : ℚ) : Prop :=
  match t with
  | .decimal p s => ∃ m : ℤ, q = m * (10 : ℚ) ^ (-s) ∧ |(m : ℚ)| < (10 : ℚ) ^ p
  | t => ∃ n, intBits t = some n ∧ ∃ i : ℤ, q = i ∧ -2 ^ (n - 1) ≤ i ∧ i < 2 ^ (n - 1)

/-- Integral, decimal and approximate types. -/
def Numeric : Ty → Prop
  | .decimal _ _ => True
  | t => (intBits t).isSome ∨ (approxBits t).isSome

/-- `c` loses no numeric range of `a`: `c` is approximate with at least the significand of `a` (if
`a` is approximate at all), or both are exact and `c` holds every value of `a`. -/
def Covers (c a : Ty) : Prop :=
  match approxBits c, approxBits a with
  | some n, some m => m ≤ n
  | some _, none => True
  | none, some _ => False
  | none, none => ∀ q, Holds a q → Holds c q

end Treeno.Spec
