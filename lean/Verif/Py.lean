/-!
# Python primitives used by treeno

Text is modelled as a list of characters.  Python strings may also contain unpaired
surrogates; those are outside the model.
-/
namespace Treeno

/-- Python `str`. -/
abbrev Str := List Char

open Lean in
/-- `c% "abc"` is the explicit character list `['a','b','c']` (so that it reduces in the kernel). -/
macro "c%" s:str : term => do
  let cs := s.getString.toList.toArray.map fun c => (Syntax.mkCharLit c : TSyntax `term)
  `(([$cs,*] : List Char))

/-- Python exceptions as values.  Only the class is kept, not the message. -/
inductive Err
  | assertion        -- AssertionError
  | typeError        -- TypeError
  | notImplemented   -- NotImplementedError
  | keyError         -- KeyError
  | indexError       -- IndexError
  | attributeError   -- AttributeError
  | valueError       -- ValueError
  | syntax           -- the text is not derivable in the modelled grammar
  | noneValue        -- a visit returned `None`; what happens to it is modelled only where it is dropped
  | unmodelled       -- behaviour outside the model (never a claim about the code)
  deriving DecidableEq, Repr

deriving instance DecidableEq for Except

/-- `sep.join(parts)` -/
def join (sep : Str) : List Str → Str
  | [] => []
  | [x] => x
  | x :: y :: r => x ++ sep ++ join sep (y :: r)

/-- `" " * n` -/
def spaces (n : Nat) : Str := List.replicate n ' '

/-- The characters at which `str.splitlines` breaks (CPython documentation of `str.splitlines`). -/
def isBreak (c : Char) : Bool :=
  c == '\n' || c == '\r' || c == '\x0b' || c == '\x0c' || c == '\x1c' || c == '\x1d' ||
  c == '\x1e' || c == '\u0085' || c == '\u2028' || c == '\u2029'

/-- Worker for `splitlines`; `acc` is the current line, reversed. -/
def splitlinesGo : Str → Str → List Str
  | acc, [] => if acc.isEmpty then [] else [acc.reverse]
  | acc, '\r' :: '\n' :: cs => acc.reverse :: splitlinesGo [] cs
  | acc, c :: cs => if isBreak c then acc.reverse :: splitlinesGo [] cs else splitlinesGo (c :: acc) cs

/-- `s.splitlines()` -/
def splitlines (s : Str) : List Str := splitlinesGo [] s

/-- `s.rjust(n)` -/
def rjust (s : Str) (n : Nat) : Str := spaces (n - s.length) ++ s

/-- `s.strip(c)` for a one-character set. -/
def lstripC (c : Char) : Str → Str
  | [] => []
  | x :: xs => if x == c then lstripC c xs else x :: xs

def stripC (c : Char) (s : Str) : Str :=
  (lstripC c ((lstripC c s).reverse)).reverse

/-- `c.upper()` on ASCII.  Simplification: other characters are left alone
(Python also maps non-ASCII letters). -/
def upperC (c : Char) : Char :=
  if 97 ≤ c.toNat ∧ c.toNat ≤ 122 then Char.ofNat (c.toNat - 32) else c

/-- `s.upper()` -/
def upper (s : Str) : Str := s.map upperC

/-- The decimal digit character of `d < 10`. -/
def digitC (d : Nat) : Char := Char.ofNat (48 + d)

/-- Worker for `natStr`, most significant digit first. -/
def natStrGo : Nat → Nat → Str → Str
  | 0, _, acc => acc
  | fuel + 1, n, acc =>
    if n < 10 then digitC n :: acc
    else natStrGo fuel (n / 10) (digitC (n % 10) :: acc)

/-- `str(n)` for a non-negative int. -/
def natStr (n : Nat) : Str := natStrGo (n + 1) n []

/-- `str(i)` for an int. -/
def intStr : Int → Str
  | .ofNat n => natStr n
  | .negSucc n => '-' :: natStr (n + 1)

/-- `c in "0123456789"` -/
def isDigit (c : Char) : Bool := 48 ≤ c.toNat && c.toNat ≤ 57

/-- `int(s)` for a string of ASCII digits. -/
def digitsVal (s : Str) : Nat := s.foldl (fun a c => a * 10 + (c.toNat - 48)) 0

/-- Membership of a key in an association list modelling a dict. -/
def hasKey {α} (k : Str) (d : List (Str × α)) : Bool := d.any (fun p => p.1 == k)

/-- `d.get(k)` for an association list modelling a dict. -/
def dget {α} (k : Str) : List (Str × α) → Option α
  | [] => none
  | (k', v) :: r => if k' == k then some v else dget k r

end Treeno
