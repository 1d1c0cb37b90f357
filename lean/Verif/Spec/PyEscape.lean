import Verif.Spec.UnicodeSpec
/-!
# The escapes of Python

Following "String and Bytes literals" in the Python language reference, as far as the text of a literal with another
escape character `e` can reach them.
-/
set_option autoImplicit false
namespace Treeno
namespace Spec

/-- The number written by octal digits. -/
def number8 : Str → Nat
  | [] => 0
  | c :: r => (place c (c% "01234567")).getD 0 * 8 ^ r.length + number8 r

/-- The escapes of one letter and what they stand for. -/
def pyLetters : List (Char × Char) :=
  [('\\', '\\'), ('\'', '\''), ('"', '"'), ('a', Char.ofNat 7), ('b', Char.ofNat 8), ('f', Char.ofNat 12), ('n', Char.ofNat 10),
   ('r', Char.ofNat 13), ('t', Char.ofNat 9), ('v', Char.ofNat 11)]

/-- The escapes with hexadecimal digits and how many they have. -/
def pyCodes : List (Char × Nat) := [('x', 2), ('u', 4), ('U', 8)]

/-- The characters that mean something after a backslash. -/
def pyKnown : Str := c% "\\'\"abfnrtvxuUN01234567\n"

/-- The text stands for the string: characters, escapes by the character `e` with four digits, and, after a backslash,
the escapes of Python. -/
inductive PyText (e : Char) : Str → Str → Prop
  | nil : PyText e [] []
  | char {c : Char} {r v : Str} : c ≠ e → c ≠ '\\' → PyText e r v → PyText e (c :: r) (c :: v)
  | code {d r v : Str} : FourDigits d → e ∉ d → PyText e r v → PyText e (e :: (d ++ r)) (Char.ofNat (number16 d) :: v)
  | letter {c d : Char} {r v : Str} : (c, d) ∈ pyLetters → c ≠ e → PyText e r v → PyText e ('\\' :: c :: r) (d :: v)
  | line {r v : Str} : e ≠ '\n' → PyText e r v → PyText e ('\\' :: '\n' :: r) v
  | number {c : Char} {k : Nat} {d r v : Str} : (c, k) ∈ pyCodes → c ≠ e → d.length = k → (∀ x ∈ d, (digit16 x).isSome = true) →
      (number16 d).isValidChar → e ∉ d → PyText e r v → PyText e ('\\' :: c :: (d ++ r)) (Char.ofNat (number16 d) :: v)
  | octal {o r v : Str} : o ≠ [] → o.length ≤ 3 → (∀ x ∈ o, x ∈ c% "01234567") → e ∉ o →
      (o.length = 3 ∨ ∀ x, r.head? = some x → x ∈ c% "01234567" → x = e) → PyText e r v →
      PyText e ('\\' :: (o ++ r)) (Char.ofNat (number8 o) :: v)
  | other {c : Char} {r v : Str} : c.toNat < 256 → c ≠ e → c ∉ pyKnown → PyText e r v → PyText e ('\\' :: c :: r) ('\\' :: c :: v)

end Spec
end Treeno
