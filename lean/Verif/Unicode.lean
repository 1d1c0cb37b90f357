import Verif.Tokens
/-!
# String literals with Unicode escapes

`visitUnicodeStringLiteral` (treeno/builder/convert.py 738-756) and the Python string methods and codecs that
it calls.  A `bytes` object is modelled as the list of characters with the same numbers.
-/
namespace Treeno

/-- `s.strip(chars)`; `p` tells the characters of `chars`. -/
def stripP (p : Char → Bool) (s : Str) : Str := ((s.dropWhile p).reverse.dropWhile p).reverse

/-- Worker for `replace`: the number says how many characters of a match are still to be passed over. -/
def replaceGo (old new : Str) : Nat → Str → Str
  | _, [] => []
  | k + 1, _ :: r => replaceGo old new k r
  | 0, c :: r =>
    if old.isPrefixOf (c :: r) then new ++ replaceGo old new (old.length - 1) r
    else c :: replaceGo old new 0 r

/-- `s.replace(old, new)`: from left to right, without overlaps; an empty `old` matches before every character and
at the end. -/
def replace (old new s : Str) : Str :=
  if old = [] then new ++ s.flatMap (fun c => c :: new) else replaceGo old new 0 s

/-- The hexadecimal digit of `d < 16`, in lower case. -/
def hexC (d : Nat) : Char := if d < 10 then Char.ofNat (48 + d) else Char.ofNat (87 + d)

/-- The `k` lowest hexadecimal digits of `n`. -/
def hexStr : Nat → Nat → Str
  | 0, _ => []
  | k + 1, n => hexStr k (n / 16) ++ [hexC (n % 16)]

/-- One character in `s.encode("raw_unicode_escape")` (CPython, `PyUnicode_AsRawUnicodeEscapeString`). -/
def rawEscape (c : Char) : Str :=
  if c.toNat < 256 then [c]
  else if c.toNat < 65536 then '\\' :: 'u' :: hexStr 4 c.toNat
  else '\\' :: 'U' :: hexStr 8 c.toNat

/-- The value of a hexadecimal digit, in either case. -/
def hexVal (c : Char) : Option Nat :=
  if 48 ≤ c.toNat ∧ c.toNat ≤ 57 then some (c.toNat - 48)
  else if 97 ≤ c.toNat ∧ c.toNat ≤ 102 then some (c.toNat - 87)
  else if 65 ≤ c.toNat ∧ c.toNat ≤ 70 then some (c.toNat - 55)
  else none

/-- The number written by hexadecimal digits. -/
def hexNum (s : Str) : Nat := s.foldl (fun a c => a * 16 + (hexVal c).getD 0) 0

/-- The character with number `n`, and how many characters after the backslash were used.  An unpaired surrogate is
a character of a Python string; those are outside the model. -/
def charAt (n k : Nat) : Except Err (Str × Nat) :=
  if 0x10FFFF < n then .error .valueError
  else if 0xD800 ≤ n ∧ n ≤ 0xDFFF then .error .unmodelled
  else .ok ([Char.ofNat n], k)

/-- `\xhh`, `\uhhhh`, `\Uhhhhhhhh`: exactly `k` hexadecimal digits. -/
def codeAt (k : Nat) (r : Str) : Except Err (Str × Nat) :=
  if (r.take k).length = k ∧ (r.take k).all (fun c => (hexVal c).isSome) then charAt (hexNum (r.take k)) (k + 1)
  else .error .valueError

/-- The escapes of one letter. -/
def letterAt (c : Char) : Option Char :=
  if c = '\\' ∨ c = '\'' ∨ c = '"' then some c
  else if c = 'b' then some '\x08' else if c = 'f' then some '\x0c' else if c = 't' then some '\t'
  else if c = 'n' then some '\n' else if c = 'r' then some '\r' else if c = 'v' then some '\x0b'
  else if c = 'a' then some '\x07' else none

def isOctal (c : Char) : Bool := 48 ≤ c.toNat && c.toNat ≤ 55

/-- What follows a backslash in `b.decode("unicode_escape")` (CPython, `_PyUnicode_DecodeUnicodeEscapeInternal`):
the characters that it stands for, and how many characters it takes.  `\N{name}` needs the table of character names
and is outside the model; other unknown escapes stay as they are. -/
def escapeAt : Str → Except Err (Str × Nat)
  | [] => .error .valueError
  | c :: r =>
    if c = 'u' then codeAt 4 r
    else if c = 'U' then codeAt 8 r
    else if c = 'x' then codeAt 2 r
    else if c = 'N' then .error .unmodelled
    else if c = '\n' then .ok ([], 1)
    else match letterAt c with
      | some d => .ok ([d], 1)
      | none =>
        if isOctal c then
          .ok ([Char.ofNat ((((c :: r).take 3).takeWhile isOctal).foldl (fun a d => a * 8 + (d.toNat - 48)) 0)],
            (((c :: r).take 3).takeWhile isOctal).length)
        else .ok (['\\', c], 1)

/-- Worker for `unescape`: the number says how many characters of an escape are still to be passed over. -/
def unescapeGo : Nat → Str → Except Err Str
  | _, [] => .ok []
  | k + 1, _ :: r => unescapeGo k r
  | 0, c :: r =>
    if c = '\\' then do
      let p ← escapeAt r
      let s ← unescapeGo p.2 r
      .ok (p.1 ++ s)
    else do
      let s ← unescapeGo 0 r
      .ok (c :: s)

/-- `b.decode("unicode_escape")` -/
def unescape (s : Str) : Except Err Str := unescapeGo 0 s

/-- The escape sequence of a literal, convert.py 742-746. -/
def escapeText : Option Tok → Except Err Str
  | none => .ok ['\\']
  | some t => stringText t

/-- `visitUnicodeStringLiteral`, convert.py 738-756. -/
def unicodeText (t : Tok) (e : Option Tok) : Except Err Str :=
  match t.kind with
  | .ustr => do
    let old ← escapeText e
    unescape ((replace old ['\\', 'u'] (stripC '\'' (stripP (fun c => c == 'U' || c == '&') t.text))).flatMap rawEscape)
  | _ => .error .unmodelled

end Treeno
