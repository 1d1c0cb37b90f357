import Verif.Tree
/-!
# The command line: `treeno antlr-tree`

treeno/cli.py 51-62 and treeno/grammar/parse.py 45-51.  The command hands the parse tree to
`antlr4.tree.Trees.toStringTree`, which writes it with parentheses, and that text to `nltk.Tree.fromstring`
(nltk 3.6.5, setup.cfg 32), which reads it back.  Both are libraries and are modelled here after their source.
`Tree.pretty_print`, which draws the tree, is not modelled: the result of the command is the tree.  A parse tree is
any tree of named rules over the texts of tokens, so that what is proved holds whatever the generated parser does,
also for the trees it makes when it recovers from a mistake in the text.
-/
namespace Treeno

/-- `ParserRuleContext` and `TerminalNode`: the name of a rule and what it read, or the text of a token. -/
inductive Rose
  | tok (text : Str)
  | rule (name : Str) (kids : List Rose)

/-- `escapeWhitespace(s, False)` of antlr4/Utils.py, one character: spaces stay. -/
def escWhite (c : Char) : Str :=
  if c = '\t' then c% "\\t" else if c = '\n' then c% "\\n" else if c = '\r' then c% "\\r" else [c]

def escWhites (s : Str) : Str := s.flatMap escWhite

mutual
/-- `Trees.toStringTree`, called in treeno/grammar/parse.py 46-47: a node without children is its name. -/
def Rose.text : Rose → Str
  | .tok s => escWhites s
  | .rule n [] => escWhites n
  | .rule n (k :: ks) => c% "(" ++ escWhites n ++ c% " " ++ Rose.text k ++ Rose.texts ks ++ c% ")"
/-- The children after the first, each after a space. -/
def Rose.texts : List Rose → Str
  | [] => []
  | k :: ks => c% " " ++ Rose.text k ++ Rose.texts ks
end

/-- `\s` of Python's `re` for texts. -/
def reSpace (c : Char) : Bool :=
  (9 ≤ c.toNat && c.toNat ≤ 13) || (28 ≤ c.toNat && c.toNat ≤ 32) || c.toNat == 0x85 || c.toNat == 0xa0 ||
  c.toNat == 0x1680 || (0x2000 ≤ c.toNat && c.toNat ≤ 0x200a) || c.toNat == 0x2028 || c.toNat == 0x2029 ||
  c.toNat == 0x202f || c.toNat == 0x205f || c.toNat == 0x3000

/-- The matches of `\(\s*([^\s\(\)]+)?|\)|([^\s\(\)]+)`, the regular expression of `Tree.fromstring`. -/
inductive Mark
  | opening (label : Str)
  | closing
  | word (s : Str)

/-- Where `finditer` is: between matches, after `(` and white space, inside a label, inside a word. -/
inductive Scan
  | between
  | opened
  | label (s : Str)
  | word (s : Str)

/-- The match that ends here. -/
def Scan.marks : Scan → List Mark
  | .between => []
  | .opened => [.opening []]
  | .label s => [.opening s]
  | .word s => [.word s]

/-- White space ends a label and a word; after `(` it is skipped. -/
def Scan.space : Scan → Scan × List Mark
  | .opened => (.opened, [])
  | s => (.between, s.marks)

/-- One more character that is neither white space nor a parenthesis. -/
def Scan.char (c : Char) : Scan → Scan
  | .between => .word [c]
  | .opened => .label [c]
  | .label s => .label (s ++ [c])
  | .word s => .word (s ++ [c])

/-- `token_re.finditer(s)` of `Tree.fromstring`. -/
def scanMarks : Scan → Str → List Mark
  | st, [] => st.marks
  | st, c :: r =>
    if c = '(' then st.marks ++ scanMarks .opened r
    else if c = ')' then st.marks ++ .closing :: scanMarks .between r
    else if reSpace c then st.space.2 ++ scanMarks st.space.1 r
    else scanMarks (st.char c) r

/-- The loop of `Tree.fromstring`: the open nodes, innermost first, and the finished tree.  A second tree, a closing
parenthesis or a word outside of any node, and an end with open nodes raise ValueError. -/
def buildTree : List (Str × List PTree) → Option PTree → List Mark → Except Err PTree
  | [], some t, [] => .ok t
  | _, _, [] => .error .valueError
  | [], some _, .opening _ :: _ => .error .valueError
  | st, d, .opening l :: ms => buildTree ((l, []) :: st) d ms
  | [], _, .closing :: _ => .error .valueError
  | [(l, ks)], _, .closing :: ms => buildTree [] (some (.node l ks)) ms
  | (l, ks) :: (l', ks') :: st, d, .closing :: ms => buildTree ((l', ks' ++ [.node l ks]) :: st) d ms
  | [], _, .word _ :: _ => .error .valueError
  | (l, ks) :: st, d, .word s :: ms => buildTree ((l, ks ++ [.leaf s]) :: st) d ms

/-- `nltk.Tree.fromstring`, treeno/grammar/parse.py 46. -/
def fromString (s : Str) : Except Err PTree := buildTree [] none (scanMarks .between s)

/-- `tree`, treeno/grammar/parse.py 45-51, as called by `antlr_tree`, treeno/cli.py 51-62. -/
def antlrTree (t : Rose) : Except Err PTree := fromString t.text

end Treeno
