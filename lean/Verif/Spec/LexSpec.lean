import Verif.Lexer
/-!
# Specification of the lexer rules

`Matches k w`: the text `w` matches a lexer rule of class `k` of `SqlBase.g4`.
-/
namespace Treeno.Spec
open Treeno

/-- `(~q | qq)*` -/
inductive QBody (q : Char) : Str → Prop
  | nil : QBody q []
  | chr (c b) : c ≠ q → QBody q b → QBody q (c :: b)
  | pair (b) : QBody q b → QBody q (q :: q :: b)

/-- `DIGIT+` -/
def Digits (s : Str) : Prop := s ≠ [] ∧ ∀ c ∈ s, isDigit c = true

/-- `EXPONENT` -/
inductive Expo : Str → Prop
  | mk (sign ds) : sign = [] ∨ sign = c% "+" ∨ sign = c% "-" → Digits ds → Expo ('E' :: sign ++ ds)

/-- The rules, in the order of the grammar file (SqlBase.g4 858-1219). -/
inductive Matches : Kind → Str → Prop
  | kwUpper (k) : k ∈ keywords → Matches .kw k
  | kwLower (k) : k ∈ keywords → Matches .kw (lower k)
  | kwOnly (k) : k ∈ upperKeywords → Matches .kw k
  | sym1 (c) : c ∈ oneSyms → Matches .sym [c]
  | sym2 (s) : s ∈ twoSyms → Matches .sym s
  | str (b) : QBody '\'' b → Matches .str ('\'' :: (b ++ ['\'']))
  | ustr (b) : QBody '\'' b → Matches .ustr ('U' :: '&' :: '\'' :: (b ++ ['\'']))
  | bin (b) : '\'' ∉ b → Matches .bin ('X' :: '\'' :: (b ++ ['\'']))
  | int (ds) : Digits ds → Matches .int ds
  | dec1 (ds fs) : Digits ds → (∀ c ∈ fs, isDigit c = true) → Matches .dec (ds ++ '.' :: fs)
  | dec2 (fs) : Digits fs → Matches .dec ('.' :: fs)
  | dbl1 (ds e) : Digits ds → Expo e → Matches .dbl (ds ++ e)
  | dbl2 (ds fs e) : Digits ds → (∀ c ∈ fs, isDigit c = true) → Expo e →
      Matches .dbl (ds ++ '.' :: fs ++ e)
  | dbl3 (fs e) : Digits fs → Expo e → Matches .dbl ('.' :: fs ++ e)
  | ident (c s) : isIdStart c = true → (∀ d ∈ s, isIdChar d = true) → Matches .ident (c :: s)
  | digitIdent (c s) : isDigit c = true → s ≠ [] → (∀ d ∈ s, isIdChar d = true) →
      Matches .digitIdent (c :: s)
  | quoted (b) : QBody '"' b → Matches .quoted ('"' :: (b ++ ['"']))
  | backquoted (b) : QBody '`' b → Matches .backquoted ('`' :: (b ++ ['`']))
  | lineComment (b t) : (∀ c ∈ b, c ≠ '\r' ∧ c ≠ '\n') →
      t = [] ∨ t = c% "\r" ∨ t = c% "\n" ∨ t = c% "\r\n" → Matches .comment ('-' :: '-' :: (b ++ t))
  | blockComment (b) : ¬ (c% "*/" <:+: b ++ c% "*") → Matches .comment ('/' :: '*' :: (b ++ c% "*/"))
  | ws (s) : s ≠ [] → (∀ c ∈ s, isWs c = true) → Matches .ws s
  | unrec (c) : Matches .unrec [c]

/-- Position of the class in the grammar file. -/
def rank : Kind → Nat
  | .kw => 0 | .sym => 1 | .str => 2 | .ustr => 3 | .bin => 4 | .int => 5 | .dec => 6 | .dbl => 7
  | .ident => 8 | .digitIdent => 9 | .quoted => 10 | .backquoted => 11 | .comment => 12 | .ws => 13
  | .unrec => 14

/-- `t` is what an ANTLR lexer returns at the start of `text`: a match of some rule, at least as long
as every other match, and of the first rule among those of that length. -/
def LongestMatch (t : Tok) (text : Str) : Prop :=
  (∃ rest, t.text ++ rest = text) ∧ Matches t.kind t.text ∧
  ∀ k w rest, w ++ rest = text → Matches k w →
    w.length < t.text.length ∨ (w.length = t.text.length ∧ rank t.kind ≤ rank k)

end Treeno.Spec
