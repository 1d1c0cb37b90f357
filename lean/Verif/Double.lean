import Verif.Py
/-!
# Double literals: Python's `float(text)` and `str(float)`

`visitDoubleLiteral` (treeno/builder/convert.py 722-730) calls `float` on the text of the literal, and `Literal.sql`
(treeno/expression.py 585-608) prints the value with `str`.  CPython computes both with correct rounding
(`Python/dtoa.c`): `float` gives the nearest binary64 value, ties to even, and `str` the shortest digits that are read
back as the same value, the nearest of those.  The definitions below compute the same with integers.
-/
namespace Treeno

/-- A non-negative binary64 value: `m * 2 ^ e`, or infinity. -/
inductive F64
  | inf
  | fin (m : Nat) (e : Int)
deriving DecidableEq

/-- `a / b` rounded to an integer, ties to even. -/
def roundQ (a b : Nat) : Nat :=
  if b < 2 * (a % b) ∨ (2 * (a % b) = b ∧ (a / b) % 2 = 1) then a / b + 1 else a / b

/-- The power of two of the last bit of `n / d`: `n / d < 2 ^ 53 * 2 ^ e`. -/
def lastBit (n d : Nat) (e : Int) : Int :=
  max (-1074) (if d * 2 ^ (53 + e).toNat ≤ n * 2 ^ (-(53 + e)).toNat then e + 1 else e)

/-- A mantissa of 54 bits is the next power of two. -/
def carry (m : Nat) (e : Int) : F64 :=
  if m = 2 ^ 53 then (if 971 < e + 1 then .inf else .fin (2 ^ 52) (e + 1))
  else if 971 < e then .inf else .fin m e

/-- `n / d` rounded at `2 ^ e`. -/
def roundAt (n d : Nat) (e : Int) : F64 := carry (roundQ (n * 2 ^ (-e).toNat) (d * 2 ^ e.toNat)) e

/-- The binary64 value nearest to `n / d`. -/
def toF64 (n d : Nat) : F64 :=
  if n = 0 then .fin 0 (-1074) else roundAt n d (lastBit n d ((n.log2 : Int) - d.log2 - 53))

/-- The binary64 value nearest to `c * 10 ^ x`. -/
def decF64 (c : Nat) (x : Int) : F64 := toF64 (c * 10 ^ x.toNat) (10 ^ (-x).toNat)

/-- The digits of a double literal without the point, and the power of ten of the last. -/
def expoVal : Str → Int
  | 'E' :: '+' :: s => digitsVal s
  | 'E' :: '-' :: s => -(digitsVal s : Int)
  | 'E' :: s => digitsVal s
  | _ => 0
def fraction : Str → Str × Str
  | '.' :: s => (s.takeWhile isDigit, s.dropWhile isDigit)
  | s => ([], s)
def dblParts (t : Str) : Nat × Int :=
  (digitsVal (t.takeWhile isDigit ++ (fraction (t.dropWhile isDigit)).1),
    expoVal (fraction (t.dropWhile isDigit)).2 - ((fraction (t.dropWhile isDigit)).1.length : Int))

/-- `float(text)` without the sign. -/
def floatOf (t : Str) : F64 := decF64 (dblParts t).1 (dblParts t).2

/-- The power of ten above `n / d`: `10 ^ (k - 1) ≤ n / d < 10 ^ k`. -/
def decPoint (n d : Nat) (k : Int) : Int :=
  if d * 10 ^ k.toNat ≤ n * 10 ^ (-k).toNat then k + 1 else k

/-- Of the two decimals around `a / b`, in units of `10 ^ x`, the nearest that is read as `v`. -/
def pickDigits (v : F64) (a b : Nat) (x : Int) : Option Nat :=
  if decF64 (a / b) x = v ∧ (decF64 (a / b + 1) x ≠ v ∨ 2 * (a % b) < b ∨ (2 * (a % b) = b ∧ (a / b) % 2 = 0)) then some (a / b)
  else if decF64 (a / b + 1) x = v then some (a / b + 1) else none

/-- The first number of digits, from `p` on, that is enough; the digits and the power of ten of the last. -/
def shortest (v : F64) (n d : Nat) (k : Int) : Nat → Nat → Nat × Int
  | 0, _ => (0, 0)
  | fuel + 1, p =>
    match pickDigits v (n * 10 ^ (p - k).toNat) (d * 10 ^ (k - p).toNat) (k - p) with
    | some c => (c, k - p)
    | none => shortest v n d k fuel (p + 1)

/-- Without zeros at the end. -/
def stripZeros (s : Str) : Str := (s.reverse.dropWhile (· == '0')).reverse

/-- At least two digits of an exponent. -/
def pad2 (n : Nat) : Str := if n < 10 then '0' :: natStr n else natStr n

def expoStr (x : Int) : Str := 'e' :: (if x < 0 then '-' else '+') :: pad2 x.natAbs

/-- `format_float_short` with code `r`: digits, and the place of the point behind the first digit. -/
def formatDigits (ds : Str) (k : Int) : Str :=
  if k ≤ -4 ∨ 16 < k then
    ds.take 1 ++ (if ds.length ≤ 1 then [] else '.' :: ds.drop 1) ++ expoStr (k - 1)
  else if k ≤ 0 then c% "0." ++ List.replicate (-k).toNat '0' ++ ds
  else if k < ds.length then ds.take k.toNat ++ '.' :: ds.drop k.toNat
  else ds ++ List.replicate (k.toNat - ds.length) '0' ++ c% ".0"

def formatParts (c : Nat) (x : Int) : Str := formatDigits (stripZeros (natStr c)) ((natStr c).length + x)

/-- The numerator and denominator of `m * 2 ^ e`. -/
def numerator (m : Nat) (e : Int) : Nat := m * 2 ^ e.toNat
def denominator (e : Int) : Nat := 2 ^ (-e).toNat

def digitsOf (v : F64) (n d : Nat) : Nat × Int :=
  shortest v n d (decPoint n d ((natStr n).length - (natStr d).length)) 17 1

/-- `str(x)` for a float without the sign. -/
def F64.str : F64 → Str
  | .inf => c% "inf"
  | .fin m e =>
    if m = 0 then c% "0.0"
    else formatParts (digitsOf (.fin m e) (numerator m e) (denominator e)).1 (digitsOf (.fin m e) (numerator m e) (denominator e)).2

/-- `str(float(text))`, with a sign in front of the text. -/
def floatStr (minus : Bool) (t : Str) : Str := (if minus then c% "-" else []) ++ (floatOf t).str

end Treeno
