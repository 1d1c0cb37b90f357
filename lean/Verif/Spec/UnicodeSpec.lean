import Verif.Py
/-!
# What a string literal with Unicode escapes stands for

Following the Trino documentation: in `U&'...'` the escape character, a backslash unless `UESCAPE` names another,
followed by four hexadecimal digits, or by a plus sign and six of them, stands for the character with that number;
twice the escape character stands for itself; two quotes stand for one.
-/
set_option autoImplicit false
namespace Treeno
namespace Spec

/-- The place of a character in a list of digits. -/
def place (c : Char) : Str → Option Nat
  | [] => none
  | d :: r => if c = d then some 0 else (place c r).map (· + 1)

/-- The value of a hexadecimal digit. -/
def digit16 (c : Char) : Option Nat :=
  match place c (c% "0123456789abcdef") with
  | some n => some n
  | none => place c (c% "0123456789ABCDEF")

/-- The number written by hexadecimal digits. -/
def number16 : Str → Nat
  | [] => 0
  | c :: r => (digit16 c).getD 0 * 16 ^ r.length + number16 r

/-- One character of a literal: written as it is, or by four hexadecimal digits after the escape character. -/
inductive Piece
  | char (c : Char)
  | code (digits : Str)

/-- How it is written. -/
def Piece.text (e : Char) : Piece → Str
  | .char c => [c]
  | .code d => e :: d

/-- The character it stands for. -/
def Piece.value : Piece → Char
  | .char c => c
  | .code d => Char.ofNat (number16 d)

/-- Four digits that write the number of a character. -/
def FourDigits (d : Str) : Prop := d.length = 4 ∧ (∀ c ∈ d, (digit16 c).isSome = true) ∧ (number16 d).isValidChar

def Piece.Ok (e : Char) : Piece → Prop
  | .char c => c ≠ e ∧ c ≠ '\\' ∧ c ≠ '\''
  | .code d => FourDigits d ∧ e ∉ d

/-- With the backslash as escape character: a character other than the backslash, or four digits. -/
def Piece.Fine : Piece → Prop
  | .char c => c ≠ '\\'
  | .code d => FourDigits d

/-- The text between the quotes. -/
def pieces (e : Char) (ps : List Piece) : Str := ps.flatMap (Piece.text e)

/-- The string that it stands for. -/
def spelled (ps : List Piece) : Str := ps.map Piece.value

/-- The string that a text stands for, if `e` is the escape character; the number says how many characters of an
escape are still to be passed over. -/
def decoded (e : Char) : Nat → Str → Str
  | _, [] => []
  | k + 1, _ :: r => decoded e k r
  | 0, c :: r =>
    if c = e then
      if r.head? = some e then e :: decoded e 1 r
      else if r.head? = some '+' then Char.ofNat (number16 (r.tail.take 6)) :: decoded e 7 r
      else Char.ofNat (number16 (r.take 4)) :: decoded e 4 r
    else c :: decoded e 0 r

/-- The decidable form of `FourDigits`. -/
def fourDigits (d : Str) : Bool :=
  d.length == 4 && d.all (fun c => (digit16 c).isSome) && decide ((number16 d).isValidChar)

/-- Every escape has four digits, and there is no backslash besides escapes. -/
def wellWritten (e : Char) : Nat → Str → Bool
  | _, [] => true
  | k + 1, _ :: r => wellWritten e k r
  | 0, c :: r =>
    if c = e then fourDigits (r.take 4) && !(r.take 4).contains e && wellWritten e 4 r
    else c != '\\' && wellWritten e 0 r

end Spec
end Treeno
