import Verif.Cst
/-!
# The tokens of a parse tree

`yield` reads the leaves of a parse tree from left to right, as the rules of treeno/grammar/SqlBase.g4
place them; fixed keywords in upper case, the other tokens as they are in the tree.
-/
namespace Treeno
namespace Spec

/-- A keyword. -/
def kwT (k : Str) : Tok := ⟨.kw, k⟩
/-- A symbol. -/
def symT (s : Str) : Tok := ⟨.sym, s⟩

/-- Items separated by a symbol. -/
def sepBy (s : Tok) : List (List Tok) → List Tok
  | [] => []
  | [x] => x
  | x :: y :: r => x ++ s :: sepBy s (y :: r)

/-- `item (',' item)*` -/
def commas (xs : List (List Tok)) : List Tok := sepBy (symT (c% ",")) xs

/-- Tokens in parentheses. -/
def inParens (ts : List Tok) : List Tok := symT (c% "(") :: (ts ++ [symT (c% ")")])

/-- A flag shown by keywords. -/
def flag (b : Bool) (ks : List Tok) : List Tok := if b then ks else []

/-- A clause that is there when it has content. -/
def clause (pre : List Tok) (xs : List (List Tok)) : List Tok :=
  if xs.isEmpty then [] else pre ++ commas xs

/-- An optional part after fixed tokens. -/
def optPart (pre : List Tok) : Option (List Tok) → List Tok
  | none => []
  | some ts => pre ++ ts

/-- An optional part between fixed tokens. -/
def optIn (pre post : List Tok) : Option (List Tok) → List Tok
  | none => []
  | some ts => pre ++ ts ++ post

/-- `ORDER BY sortItem (',' sortItem)*` -/
def orderPart (xs : List (List Tok)) : List Tok := clause [kwT (c% "ORDER"), kwT (c% "BY")] xs

/-- `qualifiedName` -/
def qname (ns : List Tok) : List Tok := sepBy (symT (c% ".")) (ns.map fun t => [t])

/-- `columnAliases?` -/
def columns (ns : List Tok) : List Tok :=
  if ns.isEmpty then [] else inParens (commas (ns.map fun t => [t]))

end Spec
open Spec

def CStr.yield : CStr → List Tok
  | .basic t => [t]
  | .unicode t none => [t]
  | .unicode t (some e) => [t, kwT (c% "UESCAPE"), e]

def COverflow.yield : COverflow → List Tok
  | .error => [kwT (c% "ON"), kwT (c% "OVERFLOW"), kwT (c% "ERROR")]
  | .truncate f w => [kwT (c% "ON"), kwT (c% "OVERFLOW"), kwT (c% "TRUNCATE")] ++ optPart [] (f.map CStr.yield) ++
      [kwT (if w then c% "WITH" else c% "WITHOUT"), kwT (c% "COUNT")]

def CJoin.yield : CJoin → List Tok
  | .inner w => flag w [kwT (c% "INNER")] ++ [kwT (c% "JOIN")]
  | .left o => kwT (c% "LEFT") :: (flag o [kwT (c% "OUTER")] ++ [kwT (c% "JOIN")])
  | .right o => kwT (c% "RIGHT") :: (flag o [kwT (c% "OUTER")] ++ [kwT (c% "JOIN")])
  | .full o => kwT (c% "FULL") :: (flag o [kwT (c% "OUTER")] ++ [kwT (c% "JOIN")])

def CLimit.yield : CLimit → List Tok
  | .none => []
  | .limit t => [kwT (c% "LIMIT"), t]
  | .fetch f n r t => [kwT (c% "FETCH"), f] ++ n.toList ++ [r] ++
      (if t then [kwT (c% "WITH"), kwT (c% "TIES")] else [kwT (c% "ONLY")])

namespace Spec

/-- `(OFFSET rowCount (ROW | ROWS)?)?` -/
def offsetPart : Option (Tok × Option Tok) → List Tok
  | none => []
  | some p => kwT (c% "OFFSET") :: p.1 :: p.2.toList

/-- `nullTreatment?` -/
def nullsPart : Option Bool → List Tok
  | none => []
  | some b => [kwT (if b then c% "IGNORE" else c% "RESPECT"), kwT (c% "NULLS")]

/-- `AS` or nothing, then a name or nothing. -/
def aliasPart (as_ : Bool) (n : Option Tok) : List Tok := flag as_ [kwT (c% "AS")] ++ n.toList

/-- The names of a lambda expression. -/
def lamIds (paren : Bool) (ids : List Tok) : List Tok :=
  if paren then inParens (commas (ids.map fun t => [t])) else ids

end Spec

mutual
def CE.yield : CE → List Tok
  | .or_ l r => l.yield ++ kwT (c% "OR") :: r.yield
  | .and_ l r => l.yield ++ kwT (c% "AND") :: r.yield
  | .not_ v => kwT (c% "NOT") :: v.yield
  | .cmp op l r => l.yield ++ op :: r.yield
  | .between neg v l u => v.yield ++ (flag neg [kwT (c% "NOT")] ++ kwT (c% "BETWEEN") :: (l.yield ++ kwT (c% "AND") :: u.yield))
  | .inList neg v es => v.yield ++ (flag neg [kwT (c% "NOT")] ++ kwT (c% "IN") :: inParens (commas (CE.yields es)))
  | .inSub neg v q => v.yield ++ (flag neg [kwT (c% "NOT")] ++ kwT (c% "IN") :: inParens q.yield)
  | .like neg v p esc => v.yield ++ (flag neg [kwT (c% "NOT")] ++ kwT (c% "LIKE") :: (p.yield ++ optPart [kwT (c% "ESCAPE")] (CE.yieldOpt esc)))
  | .isNull neg v => v.yield ++ kwT (c% "IS") :: (flag neg [kwT (c% "NOT")] ++ [kwT (c% "NULL")])
  | .distinct neg l r => l.yield ++ kwT (c% "IS") :: (flag neg [kwT (c% "NOT")] ++ kwT (c% "DISTINCT") :: kwT (c% "FROM") :: r.yield)
  | .quantified op k l q => l.yield ++ op :: k :: inParens q.yield
  | .concat l r => l.yield ++ symT (c% "||") :: r.yield
  | .arith op l r => l.yield ++ op :: r.yield
  | .sign op v => op :: v.yield
  | .atZone v z => v.yield ++ kwT (c% "AT") :: kwT (c% "TIME") :: kwT (c% "ZONE") :: z.yield
  | .null => [kwT (c% "NULL")]
  | .interval sg s f t => kwT (c% "INTERVAL") :: (sg.toList ++ (s.yield ++ f :: optPart [kwT (c% "TO")] (t.map fun x => [x])))
  | .typeCtor n s => n :: s.yield
  | .doublePrecision s => kwT (c% "DOUBLE") :: kwT (c% "PRECISION") :: s.yield
  | .num m t => flag m [symT (c% "-")] ++ [t]
  | .bool t => [t]
  | .str s => s.yield
  | .binary t => [t]
  | .param => [symT (c% "?")]
  | .row es => inParens (commas (CE.yields es))
  | .rowKw es => kwT (c% "ROW") :: inParens (commas (CE.yields es))
  | .listagg q e sep ov ob => kwT (c% "LISTAGG") :: (inParens (q.toList ++ e.yield ++ optPart [symT (c% ",")] (sep.map CStr.yield) ++ optPart [] (ov.map COverflow.yield)) ++ (kwT (c% "WITHIN") :: kwT (c% "GROUP") :: inParens (orderPart (CSort.yields ob))))
  | .callStar n l f w => qname n ++ (inParens (optIn [] [symT (c% ".")] (l.map fun x => [x]) ++ [symT (c% "*")]) ++ (optIn [kwT (c% "FILTER"), symT (c% "("), kwT (c% "WHERE")] [symT (c% ")")] (CE.yieldOpt f) ++ optPart [kwT (c% "OVER")] (CWin.yieldOpt w)))
  | .call n q args ob f ign w => qname n ++ (inParens (q.toList ++ commas (CE.yields args) ++ orderPart (CSort.yields ob)) ++ (optIn [kwT (c% "FILTER"), symT (c% "("), kwT (c% "WHERE")] [symT (c% ")")] (CE.yieldOpt f) ++ (nullsPart ign ++ optPart [kwT (c% "OVER")] (CWin.yieldOpt w))))
  | .lam p ids b => lamIds p ids ++ symT (c% "->") :: b.yield
  | .sub q => inParens q.yield
  | .case v ws e => kwT (c% "CASE") :: (optPart [] (CE.yieldOpt v) ++ ((CWhen.yields ws).flatten ++ (optPart [kwT (c% "ELSE")] (CE.yieldOpt e) ++ [kwT (c% "END")])))
  | .cast tr e _ ts => kwT (if tr then c% "TRY_CAST" else c% "CAST") :: inParens (e.yield ++ kwT (c% "AS") :: ts)
  | .array es => kwT (c% "ARRAY") :: symT (c% "[") :: (commas (CE.yields es) ++ [symT (c% "]")])
  | .subscript v i => v.yield ++ symT (c% "[") :: (i.yield ++ [symT (c% "]")])
  | .col t => [t]
  | .deref v n => v.yield ++ [symT (c% "."), n]
  | .dateTime t p => t :: optIn [symT (c% "(")] [symT (c% ")")] (p.map fun x => [x])
  | .session t => [t]
  | .normalize v f => kwT (c% "NORMALIZE") :: inParens (v.yield ++ optPart [symT (c% ",")] (f.map fun x => [x]))
  | .paren e => inParens e.yield
  | .exists_ q => kwT (c% "EXISTS") :: inParens q.yield
  | .position l r => kwT (c% "POSITION") :: inParens (l.yield ++ kwT (c% "IN") :: r.yield)
  | .substring v f n => kwT (c% "SUBSTRING") :: inParens (v.yield ++ kwT (c% "FROM") :: (f.yield ++ optPart [kwT (c% "FOR")] (CE.yieldOpt n)))
  | .extract t v => kwT (c% "EXTRACT") :: inParens (t :: kwT (c% "FROM") :: v.yield)
  | .trimFrom s c v => kwT (c% "TRIM") :: inParens (s.toList ++ (optPart [] (CE.yieldOpt c) ++ kwT (c% "FROM") :: v.yield))
  | .trim v c => kwT (c% "TRIM") :: inParens (v.yield ++ optPart [symT (c% ",")] (CE.yieldOpt c))
  | .grouping ns => kwT (c% "GROUPING") :: inParens (commas (ns.map qname))
def CE.yields : List CE → List (List Tok)
  | [] => []
  | e :: es => e.yield :: CE.yields es
def CE.yieldOpt : Option CE → Option (List Tok)
  | none => none
  | some e => some e.yield
def CWhen.yields : List CWhen → List (List Tok)
  | [] => []
  | .mk c v :: ws => (kwT (c% "WHEN") :: (c.yield ++ kwT (c% "THEN") :: v.yield)) :: CWhen.yields ws
def CSort.yields : List CSort → List (List Tok)
  | [] => []
  | .mk e o n :: ss => (e.yield ++ (o.toList ++ optPart [kwT (c% "NULLS")] (n.map fun x => [x]))) :: CSort.yields ss
def CBound.yield : CBound → List Tok
  | .unbounded t => [kwT (c% "UNBOUNDED"), t]
  | .current => [kwT (c% "CURRENT"), kwT (c% "ROW")]
  | .bounded e t => e.yield ++ [t]
def CFrame.yield : CFrame → List Tok
  | .none => []
  | .from_ t b => t :: b.yield
  | .between t a b => t :: kwT (c% "BETWEEN") :: (a.yield ++ kwT (c% "AND") :: b.yield)
def CWin.yield : CWin → List Tok
  | .ref t => [t]
  | .spec p ps ob f => inParens (p.toList ++ (clause [kwT (c% "PARTITION"), kwT (c% "BY")] (CE.yields ps) ++ (orderPart (CSort.yields ob) ++ f.yield)))
def CWin.yieldOpt : Option CWin → Option (List Tok)
  | none => none
  | some w => some w.yield
def CSet.yield : CSet → List Tok
  | .paren es => inParens (commas (CE.yields es))
  | .expr e => e.yield
def CSet.yields : List CSet → List (List Tok)
  | [] => []
  | s :: ss => s.yield :: CSet.yields ss
def CGrp.yield : CGrp → List Tok
  | .single s => s.yield
  | .rollup es => kwT (c% "ROLLUP") :: inParens (commas (CE.yields es))
  | .cube es => kwT (c% "CUBE") :: inParens (commas (CE.yields es))
  | .sets ss => kwT (c% "GROUPING") :: kwT (c% "SETS") :: inParens (commas (CSet.yields ss))
def CGrp.yields : List CGrp → List (List Tok)
  | [] => []
  | s :: ss => s.yield :: CGrp.yields ss
def CItem.yield : CItem → List Tok
  | .expr e b a => e.yield ++ aliasPart b a
  | .allOf e cols => e.yield ++ symT (c% ".") :: symT (c% "*") :: (flag (!cols.isEmpty) [kwT (c% "AS")] ++ columns cols)
  | .all => [symT (c% "*")]
def CItem.yields : List CItem → List (List Tok)
  | [] => []
  | s :: ss => s.yield :: CItem.yields ss
def CWinDef.yields : List CWinDef → List (List Tok)
  | [] => []
  | .mk n w :: ws => (n :: kwT (c% "AS") :: w.yield) :: CWinDef.yields ws
def CQ.yield : CQ → List Tok
  | .mk rc w b => clause (kwT (c% "WITH") :: flag rc [kwT (c% "RECURSIVE")]) (CNamed.yields w) ++ b.yield
def CNamed.yields : List CNamed → List (List Tok)
  | [] => []
  | .mk n cols q :: ns => (n :: (columns cols ++ kwT (c% "AS") :: inParens q.yield)) :: CNamed.yields ns
def CQN.yield : CQN → List Tok
  | .mk t ob off lim => t.yield ++ (orderPart (CSort.yields ob) ++ (offsetPart off ++ lim.yield))
def CQT.yield : CQT → List Tok
  | .set op q l r => l.yield ++ op :: (q.toList ++ r.yield)
  | .spec q items fr wh gq gs hv ws => kwT (c% "SELECT") :: (q.toList ++ (commas (CItem.yields items) ++ (clause [kwT (c% "FROM")] (CR.yields fr) ++ (optPart [kwT (c% "WHERE")] (CE.yieldOpt wh) ++ (clause (kwT (c% "GROUP") :: kwT (c% "BY") :: gq.toList) (CGrp.yields gs) ++ (optPart [kwT (c% "HAVING")] (CE.yieldOpt hv) ++ clause [kwT (c% "WINDOW")] (CWinDef.yields ws)))))))
  | .table n => kwT (c% "TABLE") :: qname n
  | .values es => kwT (c% "VALUES") :: commas (CE.yields es)
  | .sub q => inParens q.yield
def CR.yield : CR → List Tok
  | .cross l r => l.yield ++ kwT (c% "CROSS") :: kwT (c% "JOIN") :: r.yield
  | .join l t r c => l.yield ++ (t.yield ++ (r.yield ++ c.yield))
  | .natural l t r => l.yield ++ kwT (c% "NATURAL") :: (t.yield ++ r.yield)
  | .sample r t e => r.yield ++ kwT (c% "TABLESAMPLE") :: t :: inParens e.yield
  | .alias r b n cols => r.yield ++ (aliasPart b (some n) ++ columns cols)
  | .table n => qname n
  | .sub q => inParens q.yield
  | .unnest es o => kwT (c% "UNNEST") :: (inParens (commas (CE.yields es)) ++ flag o [kwT (c% "WITH"), kwT (c% "ORDINALITY")])
  | .lateral q => kwT (c% "LATERAL") :: inParens q.yield
  | .paren r => inParens r.yield
def CR.yields : List CR → List (List Tok)
  | [] => []
  | s :: ss => s.yield :: CR.yields ss
def CCrit.yield : CCrit → List Tok
  | .on e => kwT (c% "ON") :: e.yield
  | .using cols => kwT (c% "USING") :: columns cols
end

end Treeno
