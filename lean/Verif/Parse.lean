import Verif.Cst
/-!
# Reading expressions, queries and relations: SqlBase.g4 174-720

A deterministic parser for the modelled part of the grammar, with the choices ANTLR makes: operators by
the precedence of the left-recursive rules (earlier alternatives bind tighter, binary ones associate to
the left), first viable alternative otherwise.  It is the least fixed point `P` of one step `pStep`; the
approximations `parserN n` allow `n` nested calls.

Simplifications where ANTLR looks further ahead than this parser, all about unquoted non-reserved words:
* ALL at a place for a `setQuantifier` is always a quantifier;
* LIMIT, OFFSET, FETCH, WINDOW and TABLESAMPLE are never read as aliases;
* PARTITION, RANGE, ROWS and GROUPS are never read as the name of an existing window;
* `POSITION(` and `SUBSTRING(` are not read as function calls;
* LEADING, TRAILING and BOTH after `TRIM(` are never columns;
* AT after an operand is never an alias when TIME follows it;
* `(…)` as a grouping element is a grouping set unless an operator follows it or it is a query.
-/
namespace Treeno

/-! ## Reading single tokens and names -/

/-- Read a token with a property. -/
def tokIf (f : Tok → Bool) : List Tok → Option (Tok × List Tok)
  | t :: ts => if f t then some (t, ts) else none
  | [] => none

/-- Read a token with a property if it is there. -/
def optTok (f : Tok → Bool) : List Tok → Option Tok × List Tok
  | t :: ts => if f t then (some t, ts) else (none, t :: ts)
  | [] => (none, [])

/-- Read a keyword if it is there. -/
def optKw (k : Str) : List Tok → Bool × List Tok
  | t :: ts => if t.isKw k then (true, ts) else (false, t :: ts)
  | [] => (false, [])

/-- The next token has a property. -/
def nextIs (f : Tok → Bool) : List Tok → Bool
  | t :: _ => f t
  | [] => false

/-- The next two tokens have given properties. -/
def next2 (f g : Tok → Bool) : List Tok → Bool
  | t :: u :: _ => f t && g u
  | _ => false

/-- Any of the keywords. -/
def Tok.isKwOf (ks : List Str) (t : Tok) : Bool := t.kind == .kw && ks.contains (upper t.text)

/-- Any of the symbols. -/
def Tok.isSymOf (ss : List Str) (t : Tok) : Bool := t.kind == .sym && ss.contains t.text

/-- `setQuantifier`, SqlBase.g4 288-291. -/
def Tok.isQuant (t : Tok) : Bool := t.isKwOf [c% "DISTINCT", c% "ALL"]

/-- `identifier (',' identifier)*` -/
def pIdents : List Tok → Option (List Tok × List Tok)
  | [] => none
  | [t] => if t.isIdent then some ([t], []) else none
  | t :: u :: ts =>
    if t.isIdent then
      if u.isSym (c% ",") then (pIdents ts).map fun p => (t :: p.1, p.2)
      else some ([t], u :: ts)
    else none

/-- `qualifiedName`, SqlBase.g4 780-782: `identifier ('.' identifier)*` -/
def pQName : List Tok → Option (List Tok × List Tok)
  | [] => none
  | [t] => if t.isIdent then some ([t], []) else none
  | t :: u :: ts =>
    if t.isIdent then
      if u.isSym (c% ".") && nextIs Tok.isIdent ts then (pQName ts).map fun p => (t :: p.1, p.2)
      else some ([t], u :: ts)
    else none

/-- One more part of the first name. -/
def consHead (t : Tok) : List (List Tok) → List (List Tok)
  | n :: ns => (t :: n) :: ns
  | [] => [[t]]

/-- `qualifiedName (',' qualifiedName)*` -/
def pQNames : List Tok → Option (List (List Tok) × List Tok)
  | [] => none
  | [t] => if t.isIdent then some ([[t]], []) else none
  | t :: u :: ts =>
    if t.isIdent then
      if u.isSym (c% ".") then (pQNames ts).map fun p => (consHead t p.1, p.2)
      else if u.isSym (c% ",") then (pQNames ts).map fun p => ([t] :: p.1, p.2)
      else some ([[t]], u :: ts)
    else none

/-- `columnAliases`, SqlBase.g4 399-401. -/
def pColumns (ts : List Tok) : Option (List Tok × List Tok) := do
  let ts ← sym (c% "(") ts
  let p ← pIdents ts
  let ts ← sym (c% ")") p.2
  some (p.1, ts)

/-- `columnAliases?` -/
def optColumns (ts : List Tok) : Option (List Tok × List Tok) :=
  if nextSym (c% "(") ts then pColumns ts else some ([], ts)

/-- `string`, SqlBase.g4 618-621. -/
def pString : List Tok → Option (CStr × List Tok)
  | [] => none
  | t :: ts =>
    if t.kind == .str then some (.basic t, ts)
    else if t.kind == .ustr then
      if next2 (Tok.isKw (c% "UESCAPE")) (fun u => u.kind == .str) ts then
        some (.unicode t ts.tail.head?, ts.drop 2)
      else some (.unicode t none, ts)
    else none

/-- The next token starts a `string`. -/
def nextStr (ts : List Tok) : Bool := nextIs (fun t => t.kind == .str || t.kind == .ustr) ts

/-- The token is a numeric literal. -/
def Tok.isNum (t : Tok) : Bool := t.kind == .int || t.kind == .dec || t.kind == .dbl

/-- `comparisonOperator`, SqlBase.g4 628-630. -/
def Tok.isCmp (t : Tok) : Bool :=
  t.isSymOf [c% "=", c% "<>", c% "!=", c% "<", c% "<=", c% ">", c% ">="]

/-! ## Looking ahead -/

/-- The tokens after the parenthesis that closes the `d` open ones and one more. -/
def scanClose : Nat → List Tok → Option (List Tok)
  | _, [] => none
  | d, t :: ts =>
    if t.isSym (c% "(") then scanClose (d + 1) ts
    else if t.isSym (c% ")") then
      match d with
      | 0 => some ts
      | d + 1 => scanClose d ts
    else scanClose d ts

/-- The tokens after the closing parenthesis satisfy a test. -/
def afterClose (f : List Tok → Bool) (ts : List Tok) : Bool :=
  match scanClose 0 ts with
  | some r => f r
  | none => false

/-- The words that go on with a query after a closing parenthesis. -/
def queryMore : List Str :=
  [c% "UNION", c% "INTERSECT", c% "EXCEPT", c% "ORDER", c% "OFFSET", c% "LIMIT", c% "FETCH"]

/-- After `(`: do these tokens start a `queryNoWith` that reaches the closing parenthesis? -/
def qnwStart : List Tok → Bool
  | [] => false
  | t :: ts =>
    if t.isSym (c% "(") then
      qnwStart ts && afterClose (nextIs fun u => u.isSym (c% ")") || u.isKwOf queryMore) ts
    else t.isKwOf [c% "SELECT", c% "VALUES", c% "TABLE"]

/-- After `(`: do these tokens start a `query`? -/
def qStart (ts : List Tok) : Bool := nextKw (c% "WITH") ts || qnwStart ts

/-- After `IN (`: do these tokens start a query and not a list of expressions?  `((SELECT 1))` is a
list, since the alternative `#inList` is the first one. -/
def inStart (ts : List Tok) : Bool :=
  qStart ts && (!nextSym (c% "(") ts || afterClose (nextIs (Tok.isKwOf queryMore)) (ts.drop 1))

/-- After `(`: the names of a lambda expression, `(identifier (',' identifier)*)? ')' '->'`. -/
def lamHead (ts : List Tok) : Option (List Tok × List Tok) :=
  if next2 (Tok.isSym (c% ")")) (Tok.isSym (c% "->")) ts then some ([], ts.drop 2)
  else match pIdents ts with
    | some (ids, r) =>
      if next2 (Tok.isSym (c% ")")) (Tok.isSym (c% "->")) r then some (ids, r.drop 2) else none
    | none => none

/-- The level at which a token goes on with an expression: 0 OR, 1 AND, 3 predicates, 4 `||`, 5 `+ -`,
6 `* / %`, 7 AT, 8 what follows a primary expression. -/
def Tok.rank (t : Tok) : Option Nat :=
  if t.isKw (c% "OR") then some 0
  else if t.isKw (c% "AND") then some 1
  else if t.isCmp || t.isKwOf [c% "NOT", c% "BETWEEN", c% "IN", c% "LIKE", c% "IS", c% "ESCAPE"] then some 3
  else if t.isSym (c% "||") then some 4
  else if t.isSymOf [c% "+", c% "-"] then some 5
  else if t.isSymOf [c% "*", c% "/", c% "%"] then some 6
  else if t.isKw (c% "AT") then some 7
  else if t.isSymOf [c% "[", c% ".", c% "(", c% "->"] || t.kind == .str || t.kind == .ustr ||
      t.isKwOf [c% "FILTER", c% "IGNORE", c% "RESPECT", c% "OVER", c% "UESCAPE", c% "TO"] then some 8
  else none

/-! ## The parsers -/

/-- The mutually recursive parts of the parser. -/
inductive NT
  | lv (p : Nat)                 -- an expression of level `p` (0 = `expression`, 4 = `valueExpression`)
  | loop (p : Nat) (acc : CE)    -- what follows an operand at level `p`
  | exprs                        -- `expression (',' expression)*`
  | whens                        -- `whenClause+`
  | sorts                        -- `sortItem (',' sortItem)*`
  | win                          -- `windowSpecification ')'`
  | query                        -- `query`
  | qnw                          -- `queryNoWith`
  | qterm (p : Nat)              -- `queryTerm`: 0 UNION and EXCEPT, 1 INTERSECT, 2 `queryPrimary`
  | qloop (p : Nat) (acc : CQT)
  | items                        -- `selectItem (',' selectItem)*`
  | sets                         -- `groupingSet (',' groupingSet)*`
  | grps                         -- `groupingElement (',' groupingElement)*`
  | wdefs                        -- `windowDefinition (',' windowDefinition)*`
  | nameds                       -- `namedQuery (',' namedQuery)*`
  | rel                          -- `relation`
  | relLoop (acc : CR)           -- the joins that follow a relation
  | rels                         -- `relation (',' relation)*`

/-- What each part returns. -/
abbrev NT.Out : NT → Type
  | .lv _ | .loop _ _ => CE
  | .exprs => List CE
  | .whens => List CWhen
  | .sorts => List CSort
  | .win => CWin
  | .query => CQ
  | .qnw => CQN
  | .qterm _ | .qloop _ _ => CQT
  | .items => List CItem
  | .sets => List CSet
  | .grps => List CGrp
  | .wdefs => List CWinDef
  | .nameds => List CNamed
  | .rel | .relLoop _ => CR
  | .rels => List CR

/-- A family of parsers. -/
abbrev Rec := (nt : NT) → List Tok → Option (nt.Out × List Tok)

/-- One item, then more after a comma. -/
def pSep {α} (item : List Tok → Option (α × List Tok)) (more : List Tok → Option (List α × List Tok))
    (ts : List Tok) : Option (List α × List Tok) := do
  let p ← item ts
  match sym (c% ",") p.2 with
  | none => some ([p.1], p.2)
  | some ts =>
    let q ← more ts
    some (p.1 :: q.1, q.2)

/-- `(' expression (',' expression)* ')'` after the opening parenthesis, possibly with no expression. -/
def pArgs (r : Rec) (close : Str) (ts : List Tok) : Option (List CE × List Tok) :=
  match sym close ts with
  | some ts => some ([], ts)
  | none => do
    let p ← r .exprs ts
    let ts ← sym close p.2
    some (p.1, ts)

/-- `'(' query ')'` after the opening parenthesis. -/
def pSub (r : Rec) (ts : List Tok) : Option (CQ × List Tok) := do
  let p ← r .query ts
  let ts ← sym (c% ")") p.2
  some (p.1, ts)

/-- A keyword and an expression, if the keyword is there. -/
def optExpr (r : Rec) (k : Str) (ts : List Tok) : Option (Option CE × List Tok) :=
  match kw k ts with
  | none => some (none, ts)
  | some ts => do
    let p ← r (.lv 0) ts
    some (some p.1, p.2)

/-- `(ORDER BY sortItem (',' sortItem)*)?` -/
def optOrder (r : Rec) (ts : List Tok) : Option (List CSort × List Tok) :=
  match kw (c% "ORDER") ts with
  | none => some ([], ts)
  | some ts => do
    let ts ← kw (c% "BY") ts
    r .sorts ts

/-- `filter_?`, SqlBase.g4 678-680. -/
def optFilter (r : Rec) (ts : List Tok) : Option (Option CE × List Tok) :=
  if next2 (Tok.isKw (c% "FILTER")) (Tok.isSym (c% "(")) ts then do
    let ts ← kw (c% "WHERE") (ts.drop 2)
    let p ← r (.lv 0) ts
    let ts ← sym (c% ")") p.2
    some (some p.1, ts)
  else some (none, ts)

/-- `over?`, SqlBase.g4 692-694. -/
def optOver (r : Rec) (ts : List Tok) : Option (Option CWin × List Tok) :=
  if next2 (Tok.isKw (c% "OVER")) (Tok.isSym (c% "(")) ts then do
    let p ← r .win (ts.drop 2)
    some (some p.1, p.2)
  else if next2 (Tok.isKw (c% "OVER")) Tok.isIdent ts then do
    let p ← pIdent (ts.drop 1)
    some (some (.ref p.1), p.2)
  else some (none, ts)

/-- `nullTreatment?` -/
def optNulls (ts : List Tok) : Option Bool × List Tok :=
  if next2 (Tok.isKw (c% "IGNORE")) (Tok.isKw (c% "NULLS")) ts then (some true, ts.drop 2)
  else if next2 (Tok.isKw (c% "RESPECT")) (Tok.isKw (c% "NULLS")) ts then (some false, ts.drop 2)
  else (none, ts)

/-- `(nullTreatment? over)?` -/
def optNullsOver (r : Rec) (ts : List Tok) : Option ((Option Bool × Option CWin) × List Tok) :=
  match optNulls ts with
  | (none, ts) => do
    let p ← optOver r ts
    some ((none, p.1), p.2)
  | (some b, ts) => do
    let p ← optOver r ts
    if p.1.isSome then some ((some b, p.1), p.2) else none

/-- `label.*` or `*`, up to the closing parenthesis of a function call. -/
def starArgs : List Tok → Option (Option Tok × List Tok)
  | s :: c :: ts =>
    if s.isSym (c% "*") && c.isSym (c% ")") then some (none, ts)
    else if s.isIdent && c.isSym (c% ".") && next2 (Tok.isSym (c% "*")) (Tok.isSym (c% ")")) ts then
      some (some s, ts.drop 2)
    else none
  | _ => none

/-- The arguments of a call: nothing before `)` and before ORDER. -/
def callArgs (r : Rec) (quant : Option Tok) (ts : List Tok) : Option (List CE × List Tok) :=
  if quant.isNone && (nextSym (c% ")") ts || nextKw (c% "ORDER") ts) then some ([], ts)
  else r .exprs ts

/-- `functionCall` after the name and the opening parenthesis, SqlBase.g4 494-497. -/
def pCall (r : Rec) (name : List Tok) (ts : List Tok) : Option (CE × List Tok) :=
  match starArgs ts with
  | some (label, ts) => do
    let f ← optFilter r ts
    let o ← optOver r f.2
    some (.callStar name label f.1 o.1, o.2)
  | none => do
    let a ← callArgs r (optTok Tok.isQuant ts).1 (optTok Tok.isQuant ts).2
    let b ← optOrder r a.2
    let ts' ← sym (c% ")") b.2
    let f ← optFilter r ts'
    let o ← optNullsOver r f.2
    some (.call name (optTok Tok.isQuant ts).1 a.1 b.1 f.1 o.1.1 o.1.2, o.2)

/-- `(',' string)?` -/
def optSep (ts : List Tok) : Option (Option CStr × List Tok) :=
  match sym (c% ",") ts with
  | none => some (none, ts)
  | some ts => do
    let p ← pString ts
    some (some p.1, p.2)

/-- `listaggCountIndication`, SqlBase.g4 342-345: WITH COUNT. -/
def pCount (ts : List Tok) : Option (Bool × List Tok) := do
  let p ← tokIf (Tok.isKwOf [c% "WITH", c% "WITHOUT"]) ts
  let ts ← kw (c% "COUNT") p.2
  some (p.1.isKw (c% "WITH"), ts)

/-- `string?` -/
def optString (ts : List Tok) : Option (Option CStr × List Tok) :=
  if nextStr ts then do
    let p ← pString ts
    some (some p.1, p.2)
  else some (none, ts)

/-- `(ON OVERFLOW listAggOverflowBehavior)?`, SqlBase.g4 337-340. -/
def optOverflow (ts : List Tok) : Option (Option COverflow × List Tok) :=
  match kw (c% "ON") ts with
  | none => some (none, ts)
  | some ts => do
    let ts ← kw (c% "OVERFLOW") ts
    match kw (c% "ERROR") ts with
    | some ts => some (some .error, ts)
    | none =>
      let ts ← kw (c% "TRUNCATE") ts
      let s ← optString ts
      let c ← pCount s.2
      some (some (.truncate s.1 c.1), c.2)

/-- `#listagg` after `LISTAGG`, SqlBase.g4 491-493. -/
def pListAgg (r : Rec) (ts : List Tok) : Option (CE × List Tok) := do
  let ts ← sym (c% "(") ts
  let e ← r (.lv 0) (optTok Tok.isQuant ts).2
  let s ← optSep e.2
  let o ← optOverflow s.2
  let ts' ← sym (c% ")") o.2
  let ts' ← kw (c% "WITHIN") ts'
  let ts' ← kw (c% "GROUP") ts'
  let ts' ← sym (c% "(") ts'
  let ts' ← kw (c% "ORDER") ts'
  let ts' ← kw (c% "BY") ts'
  let b ← r .sorts ts'
  let ts' ← sym (c% ")") b.2
  some (.listagg (optTok Tok.isQuant ts).1 e.1 s.1 o.1 b.1, ts')

/-- `interval` after INTERVAL, SqlBase.g4 640-642. -/
def pInterval (ts : List Tok) : Option (CE × List Tok) := do
  let s ← pString (optTok (Tok.isSymOf [c% "+", c% "-"]) ts).2
  let f ← pIvField s.2
  let t ← pIvTo f.2
  some (.interval (optTok (Tok.isSymOf [c% "+", c% "-"]) ts).1 s.1 f.1 t.1, t.2)

/-- `operand?` of CASE. -/
def caseOperand (r : Rec) (ts : List Tok) : Option (Option CE × List Tok) :=
  if nextKw (c% "WHEN") ts then some (none, ts)
  else do
    let p ← r (.lv 0) ts
    some (some p.1, p.2)

/-- `#simpleCase` and `#searchedCase` after CASE, SqlBase.g4 504-505. -/
def pCase (r : Rec) (ts : List Tok) : Option (CE × List Tok) := do
  let v ← caseOperand r ts
  let w ← r .whens v.2
  let e ← optExpr r (c% "ELSE") w.2
  let ts ← kw (c% "END") e.2
  some (.case v.1 w.1 e.1, ts)

/-- `#cast` after CAST or TRY_CAST, SqlBase.g4 506-507. -/
def pCast (r : Rec) (try_ : Bool) (ts : List Tok) : Option (CE × List Tok) := do
  let ts ← sym (c% "(") ts
  let e ← r (.lv 0) ts
  let ts ← kw (c% "AS") e.2
  let t ← pType ts
  let ts' ← sym (c% ")") t.2
  some (.cast try_ e.1 t.1 (ts.take (ts.length - t.2.length)), ts')

/-- `('(' precision=INTEGER_VALUE ')')?` -/
def optPrec (ts : List Tok) : Option (Option Tok × List Tok) :=
  match sym (c% "(") ts with
  | none => some (none, ts)
  | some ts => do
    let p ← pKind .int ts
    let ts ← sym (c% ")") p.2
    some (some p.1, ts)

/-- `normalForm`, SqlBase.g4 648-650. -/
def Tok.isForm (t : Tok) : Bool := t.isKwOf [c% "NFD", c% "NFC", c% "NFKD", c% "NFKC"]

/-- `(',' normalForm)?` -/
def optForm (ts : List Tok) : Option (Option Tok × List Tok) :=
  match sym (c% ",") ts with
  | none => some (none, ts)
  | some ts => do
    let p ← tokIf Tok.isForm ts
    some (some p.1, p.2)

/-- `#normalize` after NORMALIZE, SqlBase.g4 525. -/
def pNormalize (r : Rec) (ts : List Tok) : Option (CE × List Tok) := do
  let ts ← sym (c% "(") ts
  let e ← r (.lv 4) ts
  let f ← optForm e.2
  let ts ← sym (c% ")") f.2
  some (.normalize e.1 f.1, ts)

/-- `#exists` after EXISTS, SqlBase.g4 503. -/
def pExists (r : Rec) (ts : List Tok) : Option (CE × List Tok) := do
  let ts ← sym (c% "(") ts
  let q ← pSub r ts
  some (.exists_ q.1, q.2)

/-- `#position` after POSITION, SqlBase.g4 488. -/
def pPosition (r : Rec) (ts : List Tok) : Option (CE × List Tok) := do
  let ts ← sym (c% "(") ts
  let a ← r (.lv 4) ts
  let ts ← kw (c% "IN") a.2
  let b ← r (.lv 4) ts
  let ts ← sym (c% ")") b.2
  some (.position a.1 b.1, ts)

/-- A keyword and a `valueExpression`, if the keyword is there. -/
def optValue (r : Rec) (k : Str) (ts : List Tok) : Option (Option CE × List Tok) :=
  match kw k ts with
  | none => some (none, ts)
  | some ts => do
    let p ← r (.lv 4) ts
    some (some p.1, p.2)

/-- `#substring` after SUBSTRING, SqlBase.g4 524. -/
def pSubstring (r : Rec) (ts : List Tok) : Option (CE × List Tok) := do
  let ts ← sym (c% "(") ts
  let a ← r (.lv 4) ts
  let ts ← kw (c% "FROM") a.2
  let b ← r (.lv 4) ts
  let n ← optValue r (c% "FOR") b.2
  let ts ← sym (c% ")") n.2
  some (.substring a.1 b.1 n.1, ts)

/-- `#extract` after EXTRACT, SqlBase.g4 526. -/
def pExtract (r : Rec) (ts : List Tok) : Option (CE × List Tok) := do
  let ts ← sym (c% "(") ts
  let f ← pIdent ts
  let ts ← kw (c% "FROM") f.2
  let a ← r (.lv 4) ts
  let ts ← sym (c% ")") a.2
  some (.extract f.1 a.1, ts)

/-- `trimsSpecification`, SqlBase.g4 331-335. -/
def Tok.isTrim (t : Tok) : Bool := t.isKwOf [c% "LEADING", c% "TRAILING", c% "BOTH"]

/-- `valueExpression?` before FROM. -/
def trimChar (r : Rec) (ts : List Tok) : Option (Option CE × List Tok) :=
  if nextKw (c% "FROM") ts then some (none, ts)
  else do
    let p ← r (.lv 4) ts
    some (some p.1, p.2)

/-- `(',' valueExpression)?` -/
def optComma (r : Rec) (ts : List Tok) : Option (Option CE × List Tok) :=
  match sym (c% ",") ts with
  | none => some (none, ts)
  | some ts => do
    let p ← r (.lv 4) ts
    some (some p.1, p.2)

/-- The forms of TRIM without FROM. -/
def trimPlain (r : Rec) (s : Option Tok) (c : Option CE) (ts : List Tok) : Option (CE × List Tok) :=
  match s, c with
  | none, some e => do
    let a ← optComma r ts
    let ts ← sym (c% ")") a.2
    some (.trim e a.1, ts)
  | _, _ => none

/-- `#trim` after TRIM, SqlBase.g4 521-523. -/
def pTrim (r : Rec) (ts : List Tok) : Option (CE × List Tok) := do
  let ts ← sym (c% "(") ts
  let c ← trimChar r (optTok Tok.isTrim ts).2
  if nextKw (c% "FROM") c.2 then do
    let e ← r (.lv 4) (c.2.drop 1)
    let ts' ← sym (c% ")") e.2
    some (.trimFrom (optTok Tok.isTrim ts).1 c.1 e.1, ts')
  else trimPlain r (optTok Tok.isTrim ts).1 c.1 c.2

/-- `#groupingOperation` after GROUPING, SqlBase.g4 528. -/
def pGrouping (ts : List Tok) : Option (CE × List Tok) := do
  let ts ← sym (c% "(") ts
  match sym (c% ")") ts with
  | some ts => some (.grouping [], ts)
  | none =>
    let n ← pQNames ts
    let ts ← sym (c% ")") n.2
    some (.grouping n.1, ts)

/-- One expression in parentheses, or a row of several. -/
def parenOrRow : List CE → CE
  | [e] => .paren e
  | es => .row es

/-- After `(`: lambda expression, subquery, row or expression in parentheses. -/
def pParen (r : Rec) (ts : List Tok) : Option (CE × List Tok) :=
  match lamHead ts with
  | some (ids, ts) => do
    let b ← r (.lv 0) ts
    some (.lam true ids b.1, b.2)
  | none =>
    if qStart ts then do
      let q ← pSub r ts
      some (.sub q.1, q.2)
    else do
      let es ← r .exprs ts
      let ts ← sym (c% ")") es.2
      some (parenOrRow es.1, ts)

/-- Primary expressions that start with an identifier `t`: type constructor, lambda expression, function
call, column reference. -/
def pName (r : Rec) (t : Tok) (ts : List Tok) : Option (CE × List Tok) :=
  if nextStr ts then do
    let s ← pString ts
    some (.typeCtor t s.1, s.2)
  else if nextSym (c% "->") ts then do
    let b ← r (.lv 0) (ts.drop 1)
    some (.lam false [t] b.1, b.2)
  else do
    let n ← pQName (t :: ts)
    if nextSym (c% "(") n.2 then pCall r n.1 (n.2.drop 1)
    else some (.col t, ts)

/-- `specialDateTimeFunction` with an optional precision. -/
def dateTimeWords : List Str := [c% "CURRENT_TIME", c% "CURRENT_TIMESTAMP", c% "LOCALTIME", c% "LOCALTIMESTAMP"]

/-- `#currentUser`, `#currentCatalog`, `#currentSchema`, `#currentPath`, SqlBase.g4 517-520. -/
def sessionWords : List Str := [c% "CURRENT_USER", c% "CURRENT_CATALOG", c% "CURRENT_SCHEMA", c% "CURRENT_PATH"]

/-- INTERVAL is followed by a sign or a string. -/
def intervalNext (ts : List Tok) : Bool :=
  nextStr ts || (nextIs (Tok.isSymOf [c% "+", c% "-"]) ts && nextStr (ts.drop 1))

/-- `primaryExpression` without the left-recursive alternatives, SqlBase.g4 478-527, on the first token
`t` and the tokens after it. -/
def pPrimary (r : Rec) (t : Tok) (ts : List Tok) : Option (CE × List Tok) :=
  if t.isSym (c% "(") then pParen r ts
  else if t.isSym (c% "?") then some (.param, ts)
  else if t.isSym (c% "-") then do
    let n ← tokIf Tok.isNum ts
    some (.num true n.1, n.2)
  else if t.isNum then some (.num false t, ts)
  else if t.kind == .str || t.kind == .ustr then do
    let s ← pString (t :: ts)
    some (.str s.1, s.2)
  else if t.kind == .bin then some (.binary t, ts)
  else if t.isKw (c% "NULL") then some (.null, ts)
  else if t.isKwOf [c% "TRUE", c% "FALSE"] then some (.bool t, ts)
  else if t.isKw (c% "CASE") then pCase r ts
  else if t.isKw (c% "CAST") then pCast r false ts
  else if t.isKw (c% "TRY_CAST") && nextSym (c% "(") ts then pCast r true ts
  else if t.isKw (c% "ARRAY") && nextSym (c% "[") ts then do
    let es ← pArgs r (c% "]") (ts.drop 1)
    some (.array es.1, es.2)
  else if t.isKw (c% "ROW") && nextSym (c% "(") ts then do
    let es ← r .exprs (ts.drop 1)
    let ts ← sym (c% ")") es.2
    some (.rowKw es.1, ts)
  else if t.isKw (c% "INTERVAL") && intervalNext ts then pInterval ts
  else if t.isKw (c% "DOUBLE") && nextKw (c% "PRECISION") ts then do
    let s ← pString (ts.drop 1)
    some (.doublePrecision s.1, s.2)
  else if t.isKw (c% "LISTAGG") then pListAgg r ts
  else if t.isKw (c% "CURRENT_DATE") then some (.dateTime t none, ts)
  else if t.isKwOf dateTimeWords then do
    let p ← optPrec ts
    some (.dateTime t p.1, p.2)
  else if t.isKwOf sessionWords then some (.session t, ts)
  else if t.isKw (c% "NORMALIZE") then pNormalize r ts
  else if t.isKw (c% "EXISTS") then pExists r ts
  else if t.isKw (c% "POSITION") && nextSym (c% "(") ts then pPosition r ts
  else if t.isKw (c% "SUBSTRING") && nextSym (c% "(") ts then pSubstring r ts
  else if t.isKw (c% "EXTRACT") then pExtract r ts
  else if t.isKw (c% "TRIM") then pTrim r ts
  else if t.isKw (c% "GROUPING") then pGrouping ts
  else if t.isIdent then pName r t ts
  else none

/-- `[index]` or `.name` after a primary expression; `.*` is left to `selectItem`. -/
def pPostfix (r : Rec) (acc : CE) (ts : List Tok) : Option (CE × List Tok) :=
  if nextSym (c% "[") ts then do
    let i ← r (.lv 4) (ts.drop 1)
    let ts ← sym (c% "]") i.2
    r (.loop 8 (.subscript acc i.1)) ts
  else if next2 (Tok.isSym (c% ".")) Tok.isIdent ts then do
    let n ← pIdent (ts.drop 1)
    r (.loop 8 (.deref acc n.1)) n.2
  else some (acc, ts)

/-- The interval or the string of `timeZoneSpecifier`, SqlBase.g4 623-626. -/
def pZoneSpec (ts : List Tok) : Option (CE × List Tok) :=
  if nextKw (c% "INTERVAL") ts then pInterval (ts.drop 1)
  else do
    let s ← pString ts
    some (.str s.1, s.2)

/-- `AT timeZoneSpecifier` after an operand, SqlBase.g4 471. -/
def pAt (r : Rec) (acc : CE) (ts : List Tok) : Option (CE × List Tok) :=
  if next2 (Tok.isKw (c% "AT")) (Tok.isKw (c% "TIME")) ts then do
    let u ← kw (c% "AT") ts
    let u ← kw (c% "TIME") u
    let u ← kw (c% "ZONE") u
    let z ← pZoneSpec u
    r (.loop 7 (.atZone acc z.1)) z.2
  else some (acc, ts)

/-- `(ESCAPE escape=valueExpression)?` -/
def optEscape (r : Rec) (ts : List Tok) : Option (Option CE × List Tok) :=
  match kw (c% "ESCAPE") ts with
  | none => some (none, ts)
  | some ts => do
    let p ← r (.lv 4) ts
    some (some p.1, p.2)

/-- BETWEEN, IN or LIKE, after the optional NOT. -/
def pNegatable (r : Rec) (acc : CE) (neg : Bool) (t : Tok) (ts : List Tok) : Option (CE × List Tok) :=
  if t.isKw (c% "BETWEEN") then do
    let l ← r (.lv 4) ts
    let ts ← kw (c% "AND") l.2
    let u ← r (.lv 4) ts
    some (.between neg acc l.1 u.1, u.2)
  else if t.isKw (c% "IN") then do
    let ts ← sym (c% "(") ts
    if inStart ts then do
      let q ← pSub r ts
      some (.inSub neg acc q.1, q.2)
    else do
      let es ← r .exprs ts
      let ts ← sym (c% ")") es.2
      some (.inList neg acc es.1, ts)
  else if t.isKw (c% "LIKE") then do
    let p ← r (.lv 4) ts
    let e ← optEscape r p.2
    some (.like neg acc p.1 e.1, e.2)
  else none

/-- `IS NOT? NULL` and `IS NOT? DISTINCT FROM right=valueExpression`, after IS. -/
def pIs (r : Rec) (acc : CE) (ts : List Tok) : Option (CE × List Tok) :=
  match kw (c% "NULL") (optKw (c% "NOT") ts).2 with
  | some ts' => some (.isNull (optKw (c% "NOT") ts).1 acc, ts')
  | none => do
    let ts' ← kw (c% "DISTINCT") (optKw (c% "NOT") ts).2
    let ts' ← kw (c% "FROM") ts'
    let e ← r (.lv 4) ts'
    some (.distinct (optKw (c% "NOT") ts).1 acc e.1, e.2)

/-- BETWEEN, IN or LIKE. -/
def Tok.isNegatable (t : Tok) : Bool := t.isKwOf [c% "BETWEEN", c% "IN", c% "LIKE"]

/-- `comparisonQuantifier`, SqlBase.g4 632-634. -/
def Tok.isCmpQuant (t : Tok) : Bool := t.isKwOf [c% "ALL", c% "SOME", c% "ANY"]

/-- `right=valueExpression` or `comparisonQuantifier '(' query ')'` after the comparison operator `t`.
`= ANY ((SELECT 1))` is a comparison with a function call, since the alternative `#comparison` is the
first one. -/
def pCompared (r : Rec) (acc : CE) (t : Tok) (ts : List Tok) : Option (CE × List Tok) :=
  if next2 Tok.isCmpQuant (Tok.isSym (c% "(")) ts && inStart (ts.drop 2) then do
    let k ← tokIf Tok.isCmpQuant ts
    let u ← sym (c% "(") k.2
    let q ← pSub r u
    some (.quantified t k.1 acc q.1, q.2)
  else do
    let e ← r (.lv 4) ts
    some (.cmp t acc e.1, e.2)

/-- `predicate?`, SqlBase.g4 451-467. -/
def pPredicate (r : Rec) (acc : CE) (ts : List Tok) : Option (CE × List Tok) :=
  match ts with
  | [] => some (acc, [])
  | t :: ts' =>
    if t.isCmp then pCompared r acc t ts'
    else if t.isKw (c% "IS") then pIs r acc ts'
    else if t.isNegatable then pNegatable r acc false t ts'
    else if t.isKw (c% "NOT") && nextIs Tok.isNegatable ts' then do
      let n ← tokIf Tok.isNegatable ts'
      pNegatable r acc true n.1 n.2
    else some (acc, t :: ts')

/-- The binary operator a token is at a level: OR 0, AND 1, `||` 4, `+ -` 5, `* / %` 6. -/
def binOp (p : Nat) (t : Tok) : Option (CE → CE → CE) :=
  match p with
  | 0 => if t.isKw (c% "OR") then some .or_ else none
  | 1 => if t.isKw (c% "AND") then some .and_ else none
  | 4 => if t.isSym (c% "||") then some .concat else none
  | 5 => if t.isSymOf [c% "+", c% "-"] then some (.arith t) else none
  | 6 => if t.isSymOf [c% "*", c% "/", c% "%"] then some (.arith t) else none
  | _ => none

/-- The loop of a left-associative binary operator. -/
def pBinLoop (r : Rec) (p : Nat) (acc : CE) (ts : List Tok) : Option (CE × List Tok) :=
  match ts with
  | [] => some (acc, [])
  | t :: ts' =>
    match binOp p t with
    | none => some (acc, t :: ts')
    | some f => do
      let e ← r (.lv (p + 1)) ts'
      r (.loop p (f acc e.1)) e.2

/-- An operand of level `p + 1` and what follows it at level `p`. -/
def pOperand (r : Rec) (p : Nat) (ts : List Tok) : Option (CE × List Tok) := do
  let e ← r (.lv (p + 1)) ts
  r (.loop p e.1) e.2

/-- A sign that is not part of a number. -/
def signNext (ts : List Tok) : Bool :=
  match ts with
  | t :: ts => t.isSym (c% "+") || (t.isSym (c% "-") && !nextIs Tok.isNum ts)
  | [] => false

/-- An expression of level `p`. -/
def pLevel (r : Rec) (p : Nat) (ts : List Tok) : Option (CE × List Tok) :=
  match p with
  | 2 =>
    if nextKw (c% "NOT") ts then do
      let e ← r (.lv 2) (ts.drop 1)
      some (.not_ e.1, e.2)
    else r (.lv 3) ts
  | 7 =>
    if signNext ts then do
      let s ← tokIf (Tok.isSymOf [c% "+", c% "-"]) ts
      let e ← r (.lv 7) s.2
      some (.sign s.1 e.1, e.2)
    else pOperand r 7 ts
  | 8 => do
    let t ← tokIf (fun _ => true) ts
    let e ← pPrimary r t.1 t.2
    r (.loop 8 e.1) e.2
  | p => if p ≤ 6 then pOperand r p ts else none

/-- What follows an operand of level `p`. -/
def pLoop (r : Rec) (p : Nat) (acc : CE) (ts : List Tok) : Option (CE × List Tok) :=
  match p with
  | 3 => pPredicate r acc ts
  | 7 => pAt r acc ts
  | 8 => pPostfix r acc ts
  | p => pBinLoop r p acc ts

/-- `whenClause`, SqlBase.g4 674-676. -/
def pWhen (r : Rec) (ts : List Tok) : Option (CWhen × List Tok) := do
  let ts ← kw (c% "WHEN") ts
  let c ← r (.lv 0) ts
  let ts ← kw (c% "THEN") c.2
  let v ← r (.lv 0) ts
  some (.mk c.1 v.1, v.2)

/-- `whenClause+` -/
def pWhens (r : Rec) (ts : List Tok) : Option (List CWhen × List Tok) := do
  let w ← pWhen r ts
  if nextKw (c% "WHEN") w.2 then do
    let ws ← r .whens w.2
    some (w.1 :: ws.1, ws.2)
  else some ([w.1], w.2)

/-- `(NULLS nullOrdering=(FIRST | LAST))?` -/
def optNullOrder (ts : List Tok) : Option (Option Tok × List Tok) :=
  match kw (c% "NULLS") ts with
  | none => some (none, ts)
  | some ts => do
    let p ← tokIf (Tok.isKwOf [c% "FIRST", c% "LAST"]) ts
    some (some p.1, p.2)

/-- ASC or DESC. -/
def Tok.isOrdering (t : Tok) : Bool := t.isKwOf [c% "ASC", c% "DESC"]

/-- `sortItem`, SqlBase.g4 244-246. -/
def pSort (r : Rec) (ts : List Tok) : Option (CSort × List Tok) := do
  let e ← r (.lv 0) ts
  let n ← optNullOrder (optTok Tok.isOrdering e.2).2
  some (.mk e.1 (optTok Tok.isOrdering e.2).1 n.1, n.2)

/-- PRECEDING or FOLLOWING. -/
def Tok.isDirection (t : Tok) : Bool := t.isKwOf [c% "PRECEDING", c% "FOLLOWING"]

/-- `frameBound`, SqlBase.g4 715-720. -/
def pBound (r : Rec) (ts : List Tok) : Option (CBound × List Tok) :=
  if next2 (Tok.isKw (c% "UNBOUNDED")) Tok.isDirection ts then do
    let t ← tokIf Tok.isDirection (ts.drop 1)
    some (.unbounded t.1, t.2)
  else if next2 (Tok.isKw (c% "CURRENT")) (Tok.isKw (c% "ROW")) ts then some (.current, ts.drop 2)
  else do
    let e ← r (.lv 0) ts
    let t ← tokIf Tok.isDirection e.2
    some (.bounded e.1 t.1, t.2)

/-- RANGE, ROWS or GROUPS. -/
def Tok.isFrame (t : Tok) : Bool := t.isKwOf [c% "RANGE", c% "ROWS", c% "GROUPS"]

/-- `frameExtent?`, SqlBase.g4 706-713. -/
def optFrame (r : Rec) (ts : List Tok) : Option (CFrame × List Tok) :=
  if nextIs Tok.isFrame ts then do
    let t ← tokIf Tok.isFrame ts
    match kw (c% "BETWEEN") t.2 with
    | none =>
      let b ← pBound r t.2
      some (.from_ t.1 b.1, b.2)
    | some ts =>
      let a ← pBound r ts
      let ts ← kw (c% "AND") a.2
      let b ← pBound r ts
      some (.between t.1 a.1 b.1, b.2)
  else some (.none, ts)

/-- `(PARTITION BY expression (',' expression)*)?` -/
def optPartition (r : Rec) (ts : List Tok) : Option (List CE × List Tok) :=
  match kw (c% "PARTITION") ts with
  | none => some ([], ts)
  | some ts => do
    let ts ← kw (c% "BY") ts
    r .exprs ts

/-- A name for an existing window. -/
def Tok.isWinName (t : Tok) : Bool := t.isIdent && !t.isFrame && !t.isKw (c% "PARTITION")

/-- `windowSpecification ')'`, SqlBase.g4 277-282. -/
def pWin (r : Rec) (ts : List Tok) : Option (CWin × List Tok) := do
  let p ← optPartition r (optTok Tok.isWinName ts).2
  let o ← optOrder r p.2
  let f ← optFrame r o.2
  let ts' ← sym (c% ")") f.2
  some (.spec (optTok Tok.isWinName ts).1 p.1 o.1 f.1, ts')

/-- `with_?`, SqlBase.g4 178-180. -/
def optWith (r : Rec) (ts : List Tok) : Option ((Bool × List CNamed) × List Tok) :=
  match kw (c% "WITH") ts with
  | none => some ((false, []), ts)
  | some ts => do
    let w ← r .nameds (optKw (c% "RECURSIVE") ts).2
    some (((optKw (c% "RECURSIVE") ts).1, w.1), w.2)

/-- `query`, SqlBase.g4 174-176. -/
def pQuery (r : Rec) (ts : List Tok) : Option (CQ × List Tok) := do
  let w ← optWith r ts
  let b ← r .qnw w.2
  some (.mk w.1.1 w.1.2 b.1, b.2)

/-- `namedQuery`, SqlBase.g4 284-286. -/
def pNamed (r : Rec) (ts : List Tok) : Option (CNamed × List Tok) := do
  let n ← pIdent ts
  let c ← optColumns n.2
  let ts ← kw (c% "AS") c.2
  let ts ← sym (c% "(") ts
  let q ← pSub r ts
  some (.mk n.1 c.1 q.1, q.2)

/-- `rowCount`, SqlBase.g4 226-229. -/
def Tok.isCount (t : Tok) : Bool := t.kind == .int || t.isSym (c% "?")

/-- ROW or ROWS. -/
def Tok.isRows (t : Tok) : Bool := t.isKwOf [c% "ROW", c% "ROWS"]

/-- `(OFFSET offset=rowCount (ROW | ROWS)?)?` -/
def optOffset (ts : List Tok) : Option (Option (Tok × Option Tok) × List Tok) :=
  match kw (c% "OFFSET") ts with
  | none => some (none, ts)
  | some ts => do
    let n ← tokIf Tok.isCount ts
    some (some (n.1, (optTok Tok.isRows n.2).1), (optTok Tok.isRows n.2).2)

/-- `ONLY | WITH TIES`: WITH TIES. -/
def pTies (ts : List Tok) : Option (Bool × List Tok) :=
  match kw (c% "ONLY") ts with
  | some ts => some (false, ts)
  | none => do
    let ts ← kw (c% "WITH") ts
    let ts ← kw (c% "TIES") ts
    some (true, ts)

/-- The limit of `queryNoWith`, SqlBase.g4 216-229. -/
def optLimit (ts : List Tok) : Option (CLimit × List Tok) :=
  match kw (c% "LIMIT") ts with
  | some ts => do
    let n ← tokIf (fun t => t.isCount || t.isKw (c% "ALL")) ts
    some (.limit n.1, n.2)
  | none =>
    match kw (c% "FETCH") ts with
    | none => some (.none, ts)
    | some ts => do
      let f ← tokIf (Tok.isKwOf [c% "FIRST", c% "NEXT"]) ts
      let w ← tokIf Tok.isRows (optTok Tok.isCount f.2).2
      let t ← pTies w.2
      some (.fetch f.1 (optTok Tok.isCount f.2).1 w.1 t.1, t.2)

/-- `queryNoWith`, SqlBase.g4 212-219. -/
def pQnw (r : Rec) (ts : List Tok) : Option (CQN × List Tok) := do
  let t ← r (.qterm 0) ts
  let o ← optOrder r t.2
  let f ← optOffset o.2
  let l ← optLimit f.2
  some (.mk t.1 o.1 f.1 l.1, l.2)

/-- The set operation a token is at a level: UNION and EXCEPT 0, INTERSECT 1. -/
def Tok.isSetOp (p : Nat) (t : Tok) : Bool :=
  match p with
  | 0 => t.isKwOf [c% "UNION", c% "EXCEPT"]
  | 1 => t.isKw (c% "INTERSECT")
  | _ => false

/-- The loop of the left-associative set operations, SqlBase.g4 233-234. -/
def pQLoop (r : Rec) (p : Nat) (acc : CQT) (ts : List Tok) : Option (CQT × List Tok) :=
  if nextIs (Tok.isSetOp p) ts then do
    let t ← tokIf (Tok.isSetOp p) ts
    let q ← r (.qterm (p + 1)) (optTok Tok.isQuant t.2).2
    r (.qloop p (.set t.1 (optTok Tok.isQuant t.2).1 acc q.1)) q.2
  else some (acc, ts)

/-- `(FROM relation (',' relation)*)?` -/
def optFrom (r : Rec) (ts : List Tok) : Option (List CR × List Tok) :=
  match kw (c% "FROM") ts with
  | none => some ([], ts)
  | some ts => r .rels ts

/-- `(GROUP BY groupBy)?`, SqlBase.g4 252, 257-259. -/
def optGroup (r : Rec) (ts : List Tok) : Option ((Option Tok × List CGrp) × List Tok) :=
  match kw (c% "GROUP") ts with
  | none => some ((none, []), ts)
  | some ts => do
    let ts ← kw (c% "BY") ts
    let g ← r .grps (optTok Tok.isQuant ts).2
    some (((optTok Tok.isQuant ts).1, g.1), g.2)

/-- `(WINDOW windowDefinition (',' windowDefinition)*)?` -/
def optWindow (r : Rec) (ts : List Tok) : Option (List CWinDef × List Tok) :=
  match kw (c% "WINDOW") ts with
  | none => some ([], ts)
  | some ts => r .wdefs ts

/-- `querySpecification` after SELECT, SqlBase.g4 248-255. -/
def pSelect (r : Rec) (ts : List Tok) : Option (CQT × List Tok) := do
  let i ← r .items (optTok Tok.isQuant ts).2
  let f ← optFrom r i.2
  let w ← optExpr r (c% "WHERE") f.2
  let g ← optGroup r w.2
  let h ← optExpr r (c% "HAVING") g.2
  let d ← optWindow r h.2
  some (.spec (optTok Tok.isQuant ts).1 i.1 f.1 w.1 g.1.1 g.1.2 h.1 d.1, d.2)

/-- `queryPrimary`, SqlBase.g4 237-242. -/
def pQPrimary (r : Rec) (ts : List Tok) : Option (CQT × List Tok) :=
  match ts with
  | [] => none
  | t :: ts =>
    if t.isKw (c% "SELECT") then pSelect r ts
    else if t.isKw (c% "TABLE") then do
      let n ← pQName ts
      some (.table n.1, n.2)
    else if t.isKw (c% "VALUES") then do
      let es ← r .exprs ts
      some (.values es.1, es.2)
    else if t.isSym (c% "(") then do
      let q ← r .qnw ts
      let ts ← sym (c% ")") q.2
      some (.sub q.1, ts)
    else none

/-- `queryTerm`, SqlBase.g4 231-235. -/
def pQTerm (r : Rec) (p : Nat) (ts : List Tok) : Option (CQT × List Tok) :=
  match p with
  | 0 | 1 => do
    let q ← r (.qterm (p + 1)) ts
    r (.qloop p q.1) q.2
  | 2 => pQPrimary r ts
  | _ => none

/-- An alias without AS. -/
def Tok.isAlias (t : Tok) : Bool :=
  t.isIdent && !t.isKwOf [c% "LIMIT", c% "OFFSET", c% "FETCH", c% "WINDOW", c% "TABLESAMPLE"]

/-- `(AS? identifier)?` -/
def optAlias (ts : List Tok) : Option ((Bool × Option Tok) × List Tok) :=
  match kw (c% "AS") ts with
  | some ts => do
    let p ← pIdent ts
    some ((true, some p.1), p.2)
  | none => some ((false, (optTok Tok.isAlias ts).1), (optTok Tok.isAlias ts).2)

/-- `(AS columnAliases)?` -/
def optAsColumns (ts : List Tok) : Option (List Tok × List Tok) :=
  match kw (c% "AS") ts with
  | none => some ([], ts)
  | some ts => pColumns ts

/-- The expression is of the rule `primaryExpression`. -/
def CE.isPrimary : CE → Bool
  | .or_ .. | .and_ .. | .not_ .. | .cmp .. | .between .. | .inList .. | .inSub .. | .like .. | .isNull ..
  | .distinct .. | .quantified .. | .concat .. | .arith .. | .sign .. | .atZone .. => false
  | _ => true

/-- `selectItem`, SqlBase.g4 293-297. -/
def pItem (r : Rec) (ts : List Tok) : Option (CItem × List Tok) :=
  match sym (c% "*") ts with
  | some ts => some (.all, ts)
  | none => do
    let e ← r (.lv 0) ts
    if next2 (Tok.isSym (c% ".")) (Tok.isSym (c% "*")) e.2 then
      if e.1.isPrimary then do
        let c ← optAsColumns (e.2.drop 2)
        some (.allOf e.1 c.1, c.2)
      else none
    else do
      let a ← optAlias e.2
      some (.expr e.1 a.1.1 a.1.2, a.2)

/-- After `(`: no operator follows the closing parenthesis. -/
def setEnd (ts : List Tok) : Bool :=
  afterClose (fun r => !nextIs (fun t => t.rank.isSome) r) ts

/-- `groupingSet`, SqlBase.g4 268-271: a query in parentheses is not a list of expressions. -/
def pSet (r : Rec) (ts : List Tok) : Option (CSet × List Tok) :=
  if nextSym (c% "(") ts && (setEnd (ts.drop 1) && !inStart (ts.drop 1)) then do
    let es ← pArgs r (c% ")") (ts.drop 1)
    some (.paren es.1, es.2)
  else do
    let e ← r (.lv 0) ts
    some (.expr e.1, e.2)

/-- `groupingElement`, SqlBase.g4 261-266. -/
def pGrp (r : Rec) (ts : List Tok) : Option (CGrp × List Tok) :=
  if next2 (Tok.isKw (c% "ROLLUP")) (Tok.isSym (c% "(")) ts then do
    let es ← pArgs r (c% ")") (ts.drop 2)
    some (.rollup es.1, es.2)
  else if next2 (Tok.isKw (c% "CUBE")) (Tok.isSym (c% "(")) ts then do
    let es ← pArgs r (c% ")") (ts.drop 2)
    some (.cube es.1, es.2)
  else if next2 (Tok.isKw (c% "GROUPING")) (Tok.isKw (c% "SETS")) ts then do
    let ts ← sym (c% "(") (ts.drop 2)
    let ss ← r .sets ts
    let ts ← sym (c% ")") ss.2
    some (.sets ss.1, ts)
  else do
    let s ← pSet r ts
    some (.single s.1, s.2)

/-- `windowDefinition`, SqlBase.g4 273-275. -/
def pWinDef (r : Rec) (ts : List Tok) : Option (CWinDef × List Tok) := do
  let n ← pIdent ts
  let ts ← kw (c% "AS") n.2
  let ts ← sym (c% "(") ts
  let w ← r .win ts
  some (.mk n.1 w.1, w.2)

/-- `joinType JOIN`, SqlBase.g4 308-313, if it is there. -/
def pJoinType (ts : List Tok) : Option (CJoin × List Tok) :=
  match kw (c% "JOIN") ts with
  | some ts => some (.inner false, ts)
  | none =>
    match kw (c% "INNER") ts with
    | some ts => do
      let ts ← kw (c% "JOIN") ts
      some (.inner true, ts)
    | none =>
      match kw (c% "LEFT") ts with
      | some ts => do
        let ts' ← kw (c% "JOIN") (optKw (c% "OUTER") ts).2
        some (.left (optKw (c% "OUTER") ts).1, ts')
      | none =>
        match kw (c% "RIGHT") ts with
        | some ts => do
          let ts' ← kw (c% "JOIN") (optKw (c% "OUTER") ts).2
          some (.right (optKw (c% "OUTER") ts).1, ts')
        | none => do
          let ts ← kw (c% "FULL") ts
          let ts' ← kw (c% "JOIN") (optKw (c% "OUTER") ts).2
          some (.full (optKw (c% "OUTER") ts).1, ts')

/-- `joinCriteria`, SqlBase.g4 315-318. -/
def pCrit (r : Rec) (ts : List Tok) : Option (CCrit × List Tok) :=
  match kw (c% "ON") ts with
  | some ts => do
    let e ← r (.lv 0) ts
    some (.on e.1, e.2)
  | none => do
    let ts ← kw (c% "USING") ts
    let c ← pColumns ts
    some (.using c.1, c.2)

/-- `(WITH ORDINALITY)?` -/
def optOrdinality (ts : List Tok) : Bool × List Tok :=
  if next2 (Tok.isKw (c% "WITH")) (Tok.isKw (c% "ORDINALITY")) ts then (true, ts.drop 2) else (false, ts)

/-- `relationPrimary`, SqlBase.g4 403-410. -/
def pRelPrimary (r : Rec) (ts : List Tok) : Option (CR × List Tok) :=
  if nextSym (c% "(") ts then
    if qStart (ts.drop 1) then do
      let q ← pSub r (ts.drop 1)
      some (.sub q.1, q.2)
    else do
      let x ← r .rel (ts.drop 1)
      let ts ← sym (c% ")") x.2
      some (.paren x.1, ts)
  else if nextKw (c% "UNNEST") ts then do
    let ts ← sym (c% "(") (ts.drop 1)
    let es ← r .exprs ts
    let ts ← sym (c% ")") es.2
    some (.unnest es.1 (optOrdinality ts).1, (optOrdinality ts).2)
  else if nextKw (c% "LATERAL") ts then do
    let ts ← sym (c% "(") (ts.drop 1)
    let q ← pSub r ts
    some (.lateral q.1, q.2)
  else do
    let n ← pQName ts
    some (.table n.1, n.2)

/-- The relation with its alias if it has one. -/
def addAlias (x : CR) (as_ : Bool) (cols : List Tok) : Option Tok → CR
  | none => x
  | some n => .alias x as_ n cols

/-- `columnAliases?` after an alias. -/
def aliasColumns (a : Option Tok) (ts : List Tok) : Option (List Tok × List Tok) :=
  if a.isSome then optColumns ts else some ([], ts)

/-- `aliasedRelation`, SqlBase.g4 395-397. -/
def pAliased (r : Rec) (ts : List Tok) : Option (CR × List Tok) := do
  let x ← pRelPrimary r ts
  let a ← optAlias x.2
  let c ← aliasColumns a.1.2 a.2
  some (addAlias x.1 a.1.1 c.1 a.1.2, c.2)

/-- `sampledRelation`, SqlBase.g4 320-324. -/
def pSampled (r : Rec) (ts : List Tok) : Option (CR × List Tok) := do
  let x ← pAliased r ts
  match kw (c% "TABLESAMPLE") x.2 with
  | none => some x
  | some ts =>
    let t ← tokIf (Tok.isKwOf [c% "BERNOULLI", c% "SYSTEM"]) ts
    let ts ← sym (c% "(") t.2
    let e ← r (.lv 0) ts
    let ts ← sym (c% ")") e.2
    some (.sample x.1 t.1 e.1, ts)

/-- The words that start a join after a relation. -/
def joinWords : List Str := [c% "JOIN", c% "INNER", c% "LEFT", c% "RIGHT", c% "FULL"]

/-- The loop of the joins, SqlBase.g4 299-306. -/
def pRelLoop (r : Rec) (acc : CR) (ts : List Tok) : Option (CR × List Tok) :=
  if nextKw (c% "CROSS") ts then do
    let ts ← kw (c% "JOIN") (ts.drop 1)
    let x ← pSampled r ts
    r (.relLoop (.cross acc x.1)) x.2
  else if nextKw (c% "NATURAL") ts then do
    let t ← pJoinType (ts.drop 1)
    let x ← pSampled r t.2
    r (.relLoop (.natural acc t.1 x.1)) x.2
  else if nextIs (Tok.isKwOf joinWords) ts then do
    let t ← pJoinType ts
    let x ← r .rel t.2
    let c ← pCrit r x.2
    r (.relLoop (.join acc t.1 x.1 c.1)) c.2
  else some (acc, ts)

/-- One step of every parser in terms of the others. -/
def pStep (r : Rec) : Rec := fun nt => match nt with
  | .lv p => pLevel r p
  | .loop p acc => pLoop r p acc
  | .exprs => pSep (r (.lv 0)) (r .exprs)
  | .whens => pWhens r
  | .sorts => pSep (pSort r) (r .sorts)
  | .win => pWin r
  | .query => pQuery r
  | .qnw => pQnw r
  | .qterm p => pQTerm r p
  | .qloop p acc => pQLoop r p acc
  | .items => pSep (pItem r) (r .items)
  | .sets => pSep (pSet r) (r .sets)
  | .grps => pSep (pGrp r) (r .grps)
  | .wdefs => pSep (pWinDef r) (r .wdefs)
  | .nameds => pSep (pNamed r) (r .nameds)
  | .rel => fun ts => do
    let x ← pSampled r ts
    r (.relLoop x.1) x.2
  | .relLoop acc => pRelLoop r acc
  | .rels => pSep (r .rel) (r .rels)

/-- The parsers with at most `n` nested calls. -/
def parserN : Nat → Rec
  | 0 => fun _ _ => none
  | n + 1 => pStep (parserN n)

end Treeno
