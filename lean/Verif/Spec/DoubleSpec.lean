import Verif.Spec.Literals
import Verif.Spec.LexSpec
/-!
# The numbers of double literals

Binary64 numbers and rounding to them as in IEEE 754 (roundTiesToEven); the number that a double literal is written with;
the number that the text of a Python float stands for.
-/
set_option autoImplicit false
namespace Treeno.Spec

/-- The non-negative numbers of a binary64. -/
def Binary64 (y : ℚ) : Prop := ∃ (m : ℕ) (e : ℤ), m < 2 ^ 53 ∧ -1074 ≤ e ∧ e ≤ 971 ∧ y = m * 2 ^ e

/-- The last bit of the mantissa is zero. -/
def LastBitZero (y : ℚ) : Prop :=
  ∃ (m : ℕ) (e : ℤ), Even m ∧ m < 2 ^ 53 ∧ (2 ^ 52 ≤ m ∨ e = -1074) ∧ -1074 ≤ e ∧ e ≤ 971 ∧ y = m * 2 ^ e

/-- From here on numbers are rounded to infinity. -/
def tooLarge : ℚ := (2 ^ 53 - 1 / 2) * 2 ^ 971

/-- `y` is the binary64 number that `v` is rounded to. -/
structure Nearest (v y : ℚ) : Prop where
  small : v < tooLarge
  double : Binary64 y
  near : ∀ z, Binary64 z → |v - y| ≤ |v - z|
  even : ∀ z, Binary64 z → z ≠ y → |v - y| = |v - z| → LastBitZero y

/-- A number with at most `n` decimal digits, without zeros at either end. -/
def HasDigits (n : ℕ) (w : ℚ) : Prop := ∃ (c : ℕ) (x : ℤ), c < 10 ^ n ∧ w = c * 10 ^ x

/-- `w` is rounded to `y`, no number with fewer digits is, and none with as many digits is nearer to `y`. -/
structure Shortest (w y : ℚ) : Prop where
  rounds : Nearest w y
  fewest : ∀ n w', HasDigits n w' → Nearest w' y → HasDigits n w
  nearest : ∀ n w', HasDigits n w' → Nearest w' y → (∀ k u, k < n → HasDigits k u → ¬ Nearest u y) → |w - y| ≤ |w' - y|

/-- The exponent of a double literal. -/
inductive ExpoText : Str → ℤ → Prop
  | none (xs : Str) : Digits xs → ExpoText ('E' :: xs) (number xs)
  | plus (xs : Str) : Digits xs → ExpoText ('E' :: '+' :: xs) (number xs)
  | minus (xs : Str) : Digits xs → ExpoText ('E' :: '-' :: xs) (-(number xs : ℤ))

/-- A double literal and its number. -/
inductive DoubleText : Str → ℚ → Prop
  | whole (i x : Str) (k : ℤ) : Digits i → ExpoText x k → DoubleText (i ++ x) (number i * 10 ^ k)
  | point (i f x : Str) (k : ℤ) : Digits i → (∀ c ∈ f, isDigit c = true) → ExpoText x k →
      DoubleText (i ++ '.' :: f ++ x) (written i f * 10 ^ k)
  | dot (f x : Str) (k : ℤ) : Digits f → ExpoText x k → DoubleText ('.' :: f ++ x) (written [] f * 10 ^ k)

/-- Digits without needless zeros in front, and at the end. -/
def Leading (i : Str) : Prop := Digits i ∧ (i = c% "0" ∨ i.head? ≠ some '0')
def Trailing (f : Str) : Prop := Digits f ∧ (f = c% "0" ∨ f.getLast? ≠ some '0')

/-- The digits of an exponent: at least two. -/
def Power (xs : Str) : Prop := Digits xs ∧ (xs.length = 2 ∨ 2 < xs.length ∧ xs.head? ≠ some '0')

/-- The text of a Python float between `0.0001` and `1e+16`: `i.f`, with at most 22 digits. -/
inductive PointText : Str → ℚ → Prop
  | mk (i f : Str) : Leading i → Trailing f → i.length + f.length ≤ 22 → PointText (i ++ '.' :: f) (written i f)

/-- The text of other Python floats: one digit, perhaps more behind a point, and an exponent. -/
inductive PowerText : Str → ℚ → Prop
  | whole (c s : Char) (xs : Str) : isDigit c = true → c ≠ '0' → s = '+' ∨ s = '-' → Power xs →
      PowerText (c :: 'e' :: s :: xs) (number [c] * 10 ^ (if s = '-' then -(number xs : ℤ) else number xs))
  | point (c s : Char) (f xs : Str) : isDigit c = true → c ≠ '0' → s = '+' ∨ s = '-' → Digits f → f.getLast? ≠ some '0' →
      Power xs →
      PowerText (c :: '.' :: f ++ 'e' :: s :: xs) (written [c] f * 10 ^ (if s = '-' then -(number xs : ℤ) else number xs))

/-- How Python shows a number: with an exponent if it is small or large. -/
def FloatText (r : Str) (w : ℚ) : Prop :=
  (r = c% "0.0" ∧ w = 0) ∨ (PointText r w ∧ 1 / 10 ^ 4 ≤ w ∧ w < 10 ^ 16) ∨ (PowerText r w ∧ (w < 1 / 10 ^ 4 ∨ 10 ^ 16 ≤ w))

end Treeno.Spec
