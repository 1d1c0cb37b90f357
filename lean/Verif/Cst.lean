import Verif.TypeParse
/-!
# Parse trees of expressions, queries and relations

One constructor per modelled alternative of treeno/grammar/SqlBase.g4; the comments cite its lines.
Optional words that leave no trace elsewhere (`AS`, `OUTER`, ...) are kept as flags, so that the tokens
of a tree can be listed (`Spec/Grammar.lean`).

Not modelled, hence not parsed: the JSON functions, measures,
processing modes, table functions, query periods, `MATCH_RECOGNIZE` and the row pattern parts of windows.
-/
namespace Treeno

/-- `string`, SqlBase.g4 618-621. -/
inductive CStr
  | basic (t : Tok)
  | unicode (t : Tok) (escape : Option Tok)
  deriving DecidableEq, Repr

/-- `listAggOverflowBehavior`, SqlBase.g4 337-345. -/
inductive COverflow
  | error
  | truncate (filler : Option CStr) (withCount : Bool)
  deriving DecidableEq, Repr

/-- `joinType`, SqlBase.g4 308-313; the flags tell whether INNER or OUTER is written. -/
inductive CJoin
  | inner (word : Bool)
  | left (outer : Bool)
  | right (outer : Bool)
  | full (outer : Bool)
  deriving DecidableEq, Repr

/-- LIMIT or FETCH of `queryNoWith`, SqlBase.g4 215-229.  A FETCH clause is kept as its tokens. -/
inductive CLimit
  | none
  | limit (count : Tok)
  | fetch (first : Tok) (count : Option Tok) (rows : Tok) (ties : Bool)
  deriving DecidableEq, Repr

mutual
/-- `expression`, `booleanExpression`, `predicate`, `valueExpression` and `primaryExpression`,
SqlBase.g4 446-559. -/
inductive CE
  -- booleanExpression, 450-455
  | or_ (l r : CE)
  | and_ (l r : CE)
  | not_ (v : CE)
  -- predicate, 458-467
  | cmp (op : Tok) (l r : CE)
  | between (neg : Bool) (v l u : CE)
  | inList (neg : Bool) (v : CE) (es : List CE)
  | inSub (neg : Bool) (v : CE) (q : CQ)
  | like (neg : Bool) (v p : CE) (esc : Option CE)
  | isNull (neg : Bool) (v : CE)
  | distinct (neg : Bool) (l r : CE)
  | quantified (op quant : Tok) (l : CE) (q : CQ)
  -- valueExpression, 469-476
  | concat (l r : CE)
  | arith (op : Tok) (l r : CE)
  | sign (op : Tok) (v : CE)
  -- `z` is the interval or string of `timeZoneSpecifier`, 623-626
  | atZone (v z : CE)
  -- primaryExpression, 478-559
  | null
  | interval (sign : Option Tok) (s : CStr) (from_ : Tok) (to : Option Tok)
  | typeCtor (name : Tok) (s : CStr)
  | doublePrecision (s : CStr)
  | num (minus : Bool) (t : Tok)
  | bool (t : Tok)
  | str (s : CStr)
  | binary (t : Tok)
  | param
  | row (es : List CE)
  | rowKw (es : List CE)
  | listagg (quant : Option Tok) (e : CE) (sep : Option CStr) (ov : Option COverflow) (ob : List CSort)
  | callStar (name : List Tok) (label : Option Tok) (filter : Option CE) (over : Option CWin)
  | call (name : List Tok) (quant : Option Tok) (args : List CE) (ob : List CSort) (filter : Option CE)
      (nulls : Option Bool) (over : Option CWin)
  | lam (paren : Bool) (ids : List Tok) (body : CE)
  | sub (q : CQ)
  | case (v : Option CE) (ws : List CWhen) (e : Option CE)
  | cast (try_ : Bool) (e : CE) (ty : CTy) (tyToks : List Tok)
  | array (es : List CE)
  | subscript (v i : CE)
  | col (t : Tok)
  | deref (v : CE) (n : Tok)
  | dateTime (t : Tok) (prec : Option Tok)
  | session (t : Tok)
  | normalize (v : CE) (form : Option Tok)
  | paren (e : CE)
  | exists_ (q : CQ)
  | position (l r : CE)
  | substring (v f : CE) (n : Option CE)
  | extract (field : Tok) (v : CE)
  | trimFrom (spec : Option Tok) (char : Option CE) (v : CE)
  | trim (v : CE) (char : Option CE)
  | grouping (names : List (List Tok))
/-- `whenClause`, 674-676. -/
inductive CWhen
  | mk (c v : CE)
/-- `sortItem`, 244-246. -/
inductive CSort
  | mk (e : CE) (ordering nulls : Option Tok)
/-- `frameBound`, 715-720. -/
inductive CBound
  | unbounded (t : Tok)
  | current
  | bounded (e : CE) (t : Tok)
/-- `frameExtent`, 706-713. -/
inductive CFrame
  | none
  | from_ (t : Tok) (b : CBound)
  | between (t : Tok) (a b : CBound)
/-- What follows OVER, 692-694 (`ref` is a window name), and `windowSpecification`, 277-282. -/
inductive CWin
  | ref (t : Tok)
  | spec (parent : Option Tok) (parts : List CE) (ob : List CSort) (frame : CFrame)
/-- `groupingSet`, 268-271. -/
inductive CSet
  | paren (es : List CE)
  | expr (e : CE)
/-- `groupingElement`, 261-266. -/
inductive CGrp
  | single (s : CSet)
  | rollup (es : List CE)
  | cube (es : List CE)
  | sets (ss : List CSet)
/-- `selectItem`, 293-297. -/
inductive CItem
  | expr (e : CE) (as_ : Bool) (alias : Option Tok)
  | allOf (e : CE) (cols : List Tok)
  | all
/-- `windowDefinition`, 273-275. -/
inductive CWinDef
  | mk (name : Tok) (w : CWin)
/-- `query` with its `with_`, 174-180; no WITH clause when `w` is empty. -/
inductive CQ
  | mk (recursive : Bool) (w : List CNamed) (body : CQN)
/-- `namedQuery`, 284-286. -/
inductive CNamed
  | mk (name : Tok) (cols : List Tok) (q : CQ)
/-- `queryNoWith`, 212-219; the offset is the row count and ROW or ROWS. -/
inductive CQN
  | mk (t : CQT) (ob : List CSort) (offset : Option (Tok × Option Tok)) (limit : CLimit)
/-- `queryTerm`, `queryPrimary`, `querySpecification`, `groupBy`, 231-259. -/
inductive CQT
  | set (op : Tok) (quant : Option Tok) (l r : CQT)
  | spec (quant : Option Tok) (items : List CItem) (from_ : List CR) (where_ : Option CE)
      (gquant : Option Tok) (groups : List CGrp) (having : Option CE) (wins : List CWinDef)
  | table (name : List Tok)
  | values (es : List CE)
  | sub (q : CQN)
/-- `relation`, `sampledRelation`, `aliasedRelation`, `relationPrimary`, 299-322 and 395-410. -/
inductive CR
  | cross (l r : CR)
  | join (l : CR) (t : CJoin) (r : CR) (c : CCrit)
  | natural (l : CR) (t : CJoin) (r : CR)
  | sample (r : CR) (t : Tok) (e : CE)
  | alias (r : CR) (as_ : Bool) (name : Tok) (cols : List Tok)
  | table (name : List Tok)
  | sub (q : CQ)
  | unnest (es : List CE) (ordinality : Bool)
  | lateral (q : CQ)
  | paren (r : CR)
/-- `joinCriteria`, 315-318. -/
inductive CCrit
  | on (e : CE)
  | using (cols : List Tok)
end

end Treeno
