import Verif.Lexer
/-!
# Helpers to read a token stream

The parsers of this model take the list of visible tokens left to read and return the tree they
built and the tokens left after it.  Terminals of the grammar (treeno/grammar/SqlBase.g4) are
keywords, symbols and token classes.
-/
namespace Treeno

/-- The token is the keyword `k` (given in upper case; the lexer accepts it in upper and lower case). -/
def Tok.isKw (k : Str) (t : Tok) : Bool := t.kind == .kw && upper t.text == k

/-- The token is the operator or punctuation `s`. -/
def Tok.isSym (s : Str) (t : Tok) : Bool := t.kind == .sym && t.text == s

/-- `identifier`, SqlBase.g4 814-820. -/
def Tok.isIdent (t : Tok) : Bool :=
  match t.kind with
  | .ident | .quoted | .backquoted | .digitIdent => true
  | .kw => nonReserved.contains (upper t.text)
  | _ => false

/-- Read the keyword `k`. -/
def kw (k : Str) : List Tok → Option (List Tok)
  | t :: ts => if t.isKw k then some ts else none
  | [] => none

/-- Read the symbol `s`. -/
def sym (s : Str) : List Tok → Option (List Tok)
  | t :: ts => if t.isSym s then some ts else none
  | [] => none

/-- Read an `identifier`. -/
def pIdent : List Tok → Option (Tok × List Tok)
  | t :: ts => if t.isIdent then some (t, ts) else none
  | [] => none

/-- Read a token of class `k`. -/
def pKind (k : Kind) : List Tok → Option (Tok × List Tok)
  | t :: ts => if t.kind == k then some (t, ts) else none
  | [] => none

/-- The next token is the keyword `k`. -/
def nextKw (k : Str) : List Tok → Bool
  | t :: _ => t.isKw k
  | [] => false

/-- The next token is the symbol `s`. -/
def nextSym (s : Str) : List Tok → Bool
  | t :: _ => t.isSym s
  | [] => false

/-- `visitQuotedIdentifier`, `visitUnquotedIdentifier`, `visitBackQuotedIdentifier`,
`visitDigitIdentifier`, treeno/builder/convert.py 956-978. -/
def identText (t : Tok) : Except Err Str :=
  match t.kind with
  | .quoted => .ok (stripC '"' t.text)
  | .backquoted | .digitIdent => .error .notImplemented
  | _ => .ok t.text

/-- `visitBasicStringLiteral`, treeno/builder/convert.py 731-735.  For Unicode strings
(`visitUnicodeStringLiteral`, 738-756) see `unicodeText`. -/
def stringText (t : Tok) : Except Err Str :=
  match t.kind with
  | .str => .ok (stripC '\'' t.text)
  | _ => .error .unmodelled

end Treeno
