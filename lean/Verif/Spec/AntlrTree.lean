import Verif.AntlrTree
import Verif.Parse
/-!
# What the command `antlr-tree` should show
-/
set_option autoImplicit false
namespace Treeno.Spec

/-- The characters that Python takes for white space. -/
def whiteCodes : List Nat :=
  [0x9, 0xa, 0xb, 0xc, 0xd, 0x1c, 0x1d, 0x1e, 0x1f, 0x20, 0x85, 0xa0, 0x1680, 0x2000, 0x2001, 0x2002, 0x2003, 0x2004,
   0x2005, 0x2006, 0x2007, 0x2008, 0x2009, 0x200a, 0x2028, 0x2029, 0x202f, 0x205f, 0x3000]

def isWhite (c : Char) : Bool := whiteCodes.contains c.toNat

/-- The text of a token with its tabs and line ends made visible. -/
def visible (s : Str) : Str :=
  s.flatMap fun c =>
    match c with
    | '\t' => ['\\', 't']
    | '\n' => ['\\', 'n']
    | '\r' => ['\\', 'r']
    | c => [c]

/-- The depth of the parentheses after a text, if none is closed that was not opened. -/
def depthAfter : Nat → Str → Option Nat
  | d, [] => some d
  | d, c :: r =>
    if c = '(' then depthAfter (d + 1) r
    else if c = ')' then
      match d with
      | 0 => none
      | d + 1 => depthAfter d r
    else depthAfter d r

/-- The parentheses of a text match. -/
def Matched (s : Str) : Prop := depthAfter 0 s = some 0

/-- A token is a parenthesis, or its own parentheses match: a string may hold some. -/
def OwnMatched (t : Tok) : Prop := t.isSym (c% "(") = true ∨ t.isSym (c% ")") = true ∨ Matched t.text

/-- A word that is read as one word. -/
def PlainWord (s : Str) : Prop := s ≠ [] ∧ ∀ c ∈ s, isWhite c = false ∧ c ≠ '(' ∧ c ≠ ')'

/-- A word, unless it is empty. -/
def emitWord (s : Str) : List Str := if s.isEmpty then [] else [s]

/-- The words of a text: what stands between white space and parentheses; `a` has been read of the first one. -/
def wordsFrom : Str → Str → List Str
  | a, [] => emitWord a
  | a, c :: r =>
    if isWhite c || c == '(' || c == ')' then emitWord a ++ wordsFrom [] r else wordsFrom (a ++ [c]) r

def wordsOf (s : Str) : List Str := wordsFrom [] s

end Treeno.Spec

namespace Treeno
open Spec

mutual
/-- The texts of the tokens, from left to right. -/
def Rose.tokens : Rose → List Str
  | .tok s => [s]
  | .rule _ ks => Rose.tokensL ks
def Rose.tokensL : List Rose → List Str
  | [] => []
  | k :: ks => k.tokens ++ Rose.tokensL ks
end

mutual
/-- The rules have names, which are plain words. -/
def Rose.Named : Rose → Prop
  | .tok _ => True
  | .rule n ks => PlainWord n ∧ Rose.NamedL ks
def Rose.NamedL : List Rose → Prop
  | [] => True
  | k :: ks => k.Named ∧ Rose.NamedL ks
end

/-- A rule that has read something. -/
def Rose.Inner : Rose → Prop
  | .rule _ (_ :: _) => True
  | _ => False

mutual
/-- The names of the rules and the words of the tokens, from the top and from the left. -/
def Rose.shown : Rose → List Str
  | .tok s => wordsOf (visible s)
  | .rule n ks => n :: Rose.shownL ks
def Rose.shownL : List Rose → List Str
  | [] => []
  | k :: ks => k.shown ++ Rose.shownL ks
end

mutual
/-- The labels and leaves of a tree, from the top and from the left, without empty ones. -/
def PTree.shown : PTree → List Str
  | .leaf s => emitWord s
  | .node l ks => emitWord l ++ PTree.shownL ks
def PTree.shownL : List PTree → List Str
  | [] => []
  | k :: ks => k.shown ++ PTree.shownL ks
end

mutual
/-- The tree to be drawn: the rules are its inner nodes and the words of the tokens its leaves. -/
def Rose.picture : Rose → List PTree
  | .tok s => (wordsOf (visible s)).map .leaf
  | .rule n [] => [.leaf n]
  | .rule n (k :: ks) => [.node n (k.picture ++ Rose.pictureL ks)]
def Rose.pictureL : List Rose → List PTree
  | [] => []
  | k :: ks => k.picture ++ Rose.pictureL ks
end

end Treeno
