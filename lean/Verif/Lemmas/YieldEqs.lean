import Verif.Spec.Yield
/-!
# Equation lemmas of the functions in `Verif/Spec/Yield.lean`, one per match arm (all by `rfl`)
-/
set_option linter.unusedVariables false
namespace Treeno
open Spec

theorem CE_yield_or_ (l) (r) :
    CE.yield (.or_ l r : CE) =
      ( l.yield ++ kwT (c% "OR") :: r.yield) := rfl
theorem CE_yield_and_ (l) (r) :
    CE.yield (.and_ l r : CE) =
      ( l.yield ++ kwT (c% "AND") :: r.yield) := rfl
theorem CE_yield_not_ (v) :
    CE.yield (.not_ v : CE) =
      ( kwT (c% "NOT") :: v.yield) := rfl
theorem CE_yield_cmp (op) (l) (r) :
    CE.yield (.cmp op l r : CE) =
      ( l.yield ++ op :: r.yield) := rfl
theorem CE_yield_between (neg) (v) (l) (u) :
    CE.yield (.between neg v l u : CE) =
      ( v.yield ++ (flag neg [kwT (c% "NOT")] ++ kwT (c% "BETWEEN") :: (l.yield ++ kwT (c% "AND") :: u.yield))) := rfl
theorem CE_yield_inList (neg) (v) (es) :
    CE.yield (.inList neg v es : CE) =
      ( v.yield ++ (flag neg [kwT (c% "NOT")] ++ kwT (c% "IN") :: inParens (commas (CE.yields es)))) := rfl
theorem CE_yield_inSub (neg) (v) (q) :
    CE.yield (.inSub neg v q : CE) =
      ( v.yield ++ (flag neg [kwT (c% "NOT")] ++ kwT (c% "IN") :: inParens q.yield)) := rfl
theorem CE_yield_like (neg) (v) (p) (esc) :
    CE.yield (.like neg v p esc : CE) =
      ( v.yield ++ (flag neg [kwT (c% "NOT")] ++ kwT (c% "LIKE") :: (p.yield ++ optPart [kwT (c% "ESCAPE")] (CE.yieldOpt esc)))) := rfl
theorem CE_yield_isNull (neg) (v) :
    CE.yield (.isNull neg v : CE) =
      ( v.yield ++ kwT (c% "IS") :: (flag neg [kwT (c% "NOT")] ++ [kwT (c% "NULL")])) := rfl
theorem CE_yield_distinct (neg) (l) (r) :
    CE.yield (.distinct neg l r : CE) =
      ( l.yield ++ kwT (c% "IS") :: (flag neg [kwT (c% "NOT")] ++ kwT (c% "DISTINCT") :: kwT (c% "FROM") :: r.yield)) := rfl
theorem CE_yield_quantified (op) (k) (l) (q) :
    CE.yield (.quantified op k l q : CE) =
      ( l.yield ++ op :: k :: inParens q.yield) := rfl
theorem CE_yield_concat (l) (r) :
    CE.yield (.concat l r : CE) =
      ( l.yield ++ symT (c% "||") :: r.yield) := rfl
theorem CE_yield_arith (op) (l) (r) :
    CE.yield (.arith op l r : CE) =
      ( l.yield ++ op :: r.yield) := rfl
theorem CE_yield_sign (op) (v) :
    CE.yield (.sign op v : CE) =
      ( op :: v.yield) := rfl
theorem CE_yield_atZone (v) (z) :
    CE.yield (.atZone v z : CE) =
      ( v.yield ++ kwT (c% "AT") :: kwT (c% "TIME") :: kwT (c% "ZONE") :: z.yield) := rfl
theorem CE_yield_null :
    CE.yield (.null : CE) =
      ( [kwT (c% "NULL")]) := rfl
theorem CE_yield_interval (sg) (s) (f) (t) :
    CE.yield (.interval sg s f t : CE) =
      ( kwT (c% "INTERVAL") :: (sg.toList ++ (s.yield ++ f :: optPart [kwT (c% "TO")] (t.map fun x => [x])))) := rfl
theorem CE_yield_typeCtor (n) (s) :
    CE.yield (.typeCtor n s : CE) =
      ( n :: s.yield) := rfl
theorem CE_yield_doublePrecision (s) :
    CE.yield (.doublePrecision s : CE) =
      ( kwT (c% "DOUBLE") :: kwT (c% "PRECISION") :: s.yield) := rfl
theorem CE_yield_num (m) (t) :
    CE.yield (.num m t : CE) =
      ( flag m [symT (c% "-")] ++ [t]) := rfl
theorem CE_yield_bool (t) :
    CE.yield (.bool t : CE) =
      ( [t]) := rfl
theorem CE_yield_str (s) :
    CE.yield (.str s : CE) =
      ( s.yield) := rfl
theorem CE_yield_binary (t) :
    CE.yield (.binary t : CE) =
      ( [t]) := rfl
theorem CE_yield_param :
    CE.yield (.param : CE) =
      ( [symT (c% "?")]) := rfl
theorem CE_yield_row (es) :
    CE.yield (.row es : CE) =
      ( inParens (commas (CE.yields es))) := rfl
theorem CE_yield_rowKw (es) :
    CE.yield (.rowKw es : CE) =
      ( kwT (c% "ROW") :: inParens (commas (CE.yields es))) := rfl
theorem CE_yield_listagg (q) (e) (sep) (ov) (ob) :
    CE.yield (.listagg q e sep ov ob : CE) =
      ( kwT (c% "LISTAGG") :: (inParens (q.toList ++ e.yield ++ optPart [symT (c% ",")] (sep.map CStr.yield) ++ optPart [] (ov.map COverflow.yield)) ++ (kwT (c% "WITHIN") :: kwT (c% "GROUP") :: inParens (orderPart (CSort.yields ob))))) := rfl
theorem CE_yield_callStar (n) (l) (f) (w) :
    CE.yield (.callStar n l f w : CE) =
      ( qname n ++ (inParens (optIn [] [symT (c% ".")] (l.map fun x => [x]) ++ [symT (c% "*")]) ++ (optIn [kwT (c% "FILTER"), symT (c% "("), kwT (c% "WHERE")] [symT (c% ")")] (CE.yieldOpt f) ++ optPart [kwT (c% "OVER")] (CWin.yieldOpt w)))) := rfl
theorem CE_yield_call (n) (q) (args) (ob) (f) (ign) (w) :
    CE.yield (.call n q args ob f ign w : CE) =
      ( qname n ++ (inParens (q.toList ++ commas (CE.yields args) ++ orderPart (CSort.yields ob)) ++ (optIn [kwT (c% "FILTER"), symT (c% "("), kwT (c% "WHERE")] [symT (c% ")")] (CE.yieldOpt f) ++ (nullsPart ign ++ optPart [kwT (c% "OVER")] (CWin.yieldOpt w))))) := rfl
theorem CE_yield_lam (p) (ids) (b) :
    CE.yield (.lam p ids b : CE) =
      ( lamIds p ids ++ symT (c% "->") :: b.yield) := rfl
theorem CE_yield_sub (q) :
    CE.yield (.sub q : CE) =
      ( inParens q.yield) := rfl
theorem CE_yield_case (v) (ws) (e) :
    CE.yield (.case v ws e : CE) =
      ( kwT (c% "CASE") :: (optPart [] (CE.yieldOpt v) ++ ((CWhen.yields ws).flatten ++ (optPart [kwT (c% "ELSE")] (CE.yieldOpt e) ++ [kwT (c% "END")])))) := rfl
theorem CE_yield_cast (tr) (e) (u1_) (ts) :
    CE.yield (.cast tr e u1_ ts : CE) =
      ( kwT (if tr then c% "TRY_CAST" else c% "CAST") :: inParens (e.yield ++ kwT (c% "AS") :: ts)) := rfl
theorem CE_yield_array (es) :
    CE.yield (.array es : CE) =
      ( kwT (c% "ARRAY") :: symT (c% "[") :: (commas (CE.yields es) ++ [symT (c% "]")])) := rfl
theorem CE_yield_subscript (v) (i) :
    CE.yield (.subscript v i : CE) =
      ( v.yield ++ symT (c% "[") :: (i.yield ++ [symT (c% "]")])) := rfl
theorem CE_yield_col (t) :
    CE.yield (.col t : CE) =
      ( [t]) := rfl
theorem CE_yield_deref (v) (n) :
    CE.yield (.deref v n : CE) =
      ( v.yield ++ [symT (c% "."), n]) := rfl
theorem CE_yield_dateTime (t) (p) :
    CE.yield (.dateTime t p : CE) =
      ( t :: optIn [symT (c% "(")] [symT (c% ")")] (p.map fun x => [x])) := rfl
theorem CE_yield_session (t) :
    CE.yield (.session t : CE) =
      ( [t]) := rfl
theorem CE_yield_normalize (v) (f) :
    CE.yield (.normalize v f : CE) =
      ( kwT (c% "NORMALIZE") :: inParens (v.yield ++ optPart [symT (c% ",")] (f.map fun x => [x]))) := rfl
theorem CE_yield_paren (e) :
    CE.yield (.paren e : CE) =
      ( inParens e.yield) := rfl
theorem CE_yield_exists_ (q) :
    CE.yield (.exists_ q : CE) =
      ( kwT (c% "EXISTS") :: inParens q.yield) := rfl
theorem CE_yield_position (l) (r) :
    CE.yield (.position l r : CE) =
      ( kwT (c% "POSITION") :: inParens (l.yield ++ kwT (c% "IN") :: r.yield)) := rfl
theorem CE_yield_substring (v) (f) (n) :
    CE.yield (.substring v f n : CE) =
      ( kwT (c% "SUBSTRING") :: inParens (v.yield ++ kwT (c% "FROM") :: (f.yield ++ optPart [kwT (c% "FOR")] (CE.yieldOpt n)))) := rfl
theorem CE_yield_extract (t) (v) :
    CE.yield (.extract t v : CE) =
      ( kwT (c% "EXTRACT") :: inParens (t :: kwT (c% "FROM") :: v.yield)) := rfl
theorem CE_yield_trimFrom (s) (c) (v) :
    CE.yield (.trimFrom s c v : CE) =
      ( kwT (c% "TRIM") :: inParens (s.toList ++ (optPart [] (CE.yieldOpt c) ++ kwT (c% "FROM") :: v.yield))) := rfl
theorem CE_yield_trim (v) (c) :
    CE.yield (.trim v c : CE) =
      ( kwT (c% "TRIM") :: inParens (v.yield ++ optPart [symT (c% ",")] (CE.yieldOpt c))) := rfl
theorem CE_yield_grouping (ns) :
    CE.yield (.grouping ns : CE) =
      ( kwT (c% "GROUPING") :: inParens (commas (ns.map qname))) := rfl
theorem CE_yields_nil :
    CE.yields ([] : List CE) =
      ( []) := rfl
theorem CE_yields_cons (e) (es) :
    CE.yields (e :: es : List CE) =
      ( e.yield :: CE.yields es) := rfl
theorem CE_yieldOpt_none :
    CE.yieldOpt (none : Option CE) =
      ( none) := rfl
theorem CE_yieldOpt_some (e) :
    CE.yieldOpt (some e : Option CE) =
      ( some e.yield) := rfl
theorem CWhen_yields_nil :
    CWhen.yields ([] : List CWhen) =
      ( []) := rfl
theorem CWhen_yields_cons (c) (v) (ws) :
    CWhen.yields (.mk c v :: ws : List CWhen) =
      ( (kwT (c% "WHEN") :: (c.yield ++ kwT (c% "THEN") :: v.yield)) :: CWhen.yields ws) := rfl
theorem CSort_yields_nil :
    CSort.yields ([] : List CSort) =
      ( []) := rfl
theorem CSort_yields_cons (e) (o) (n) (ss) :
    CSort.yields (.mk e o n :: ss : List CSort) =
      ( (e.yield ++ (o.toList ++ optPart [kwT (c% "NULLS")] (n.map fun x => [x]))) :: CSort.yields ss) := rfl
theorem CBound_yield_unbounded (t) :
    CBound.yield (.unbounded t : CBound) =
      ( [kwT (c% "UNBOUNDED"), t]) := rfl
theorem CBound_yield_current :
    CBound.yield (.current : CBound) =
      ( [kwT (c% "CURRENT"), kwT (c% "ROW")]) := rfl
theorem CBound_yield_bounded (e) (t) :
    CBound.yield (.bounded e t : CBound) =
      ( e.yield ++ [t]) := rfl
theorem CFrame_yield_none :
    CFrame.yield (.none : CFrame) =
      ( []) := rfl
theorem CFrame_yield_from_ (t) (b) :
    CFrame.yield (.from_ t b : CFrame) =
      ( t :: b.yield) := rfl
theorem CFrame_yield_between (t) (a) (b) :
    CFrame.yield (.between t a b : CFrame) =
      ( t :: kwT (c% "BETWEEN") :: (a.yield ++ kwT (c% "AND") :: b.yield)) := rfl
theorem CWin_yield_ref (t) :
    CWin.yield (.ref t : CWin) =
      ( [t]) := rfl
theorem CWin_yield_spec (p) (ps) (ob) (f) :
    CWin.yield (.spec p ps ob f : CWin) =
      ( inParens (p.toList ++ (clause [kwT (c% "PARTITION"), kwT (c% "BY")] (CE.yields ps) ++ (orderPart (CSort.yields ob) ++ f.yield)))) := rfl
theorem CWin_yieldOpt_none :
    CWin.yieldOpt (none : Option CWin) =
      ( none) := rfl
theorem CWin_yieldOpt_some (w) :
    CWin.yieldOpt (some w : Option CWin) =
      ( some w.yield) := rfl
theorem CSet_yield_paren (es) :
    CSet.yield (.paren es : CSet) =
      ( inParens (commas (CE.yields es))) := rfl
theorem CSet_yield_expr (e) :
    CSet.yield (.expr e : CSet) =
      ( e.yield) := rfl
theorem CSet_yields_nil :
    CSet.yields ([] : List CSet) =
      ( []) := rfl
theorem CSet_yields_cons (s) (ss) :
    CSet.yields (s :: ss : List CSet) =
      ( s.yield :: CSet.yields ss) := rfl
theorem CGrp_yield_single (s) :
    CGrp.yield (.single s : CGrp) =
      ( s.yield) := rfl
theorem CGrp_yield_rollup (es) :
    CGrp.yield (.rollup es : CGrp) =
      ( kwT (c% "ROLLUP") :: inParens (commas (CE.yields es))) := rfl
theorem CGrp_yield_cube (es) :
    CGrp.yield (.cube es : CGrp) =
      ( kwT (c% "CUBE") :: inParens (commas (CE.yields es))) := rfl
theorem CGrp_yield_sets (ss) :
    CGrp.yield (.sets ss : CGrp) =
      ( kwT (c% "GROUPING") :: kwT (c% "SETS") :: inParens (commas (CSet.yields ss))) := rfl
theorem CGrp_yields_nil :
    CGrp.yields ([] : List CGrp) =
      ( []) := rfl
theorem CGrp_yields_cons (s) (ss) :
    CGrp.yields (s :: ss : List CGrp) =
      ( s.yield :: CGrp.yields ss) := rfl
theorem CItem_yield_expr (e) (b) (a) :
    CItem.yield (.expr e b a : CItem) =
      ( e.yield ++ aliasPart b a) := rfl
theorem CItem_yield_allOf (e) (cols) :
    CItem.yield (.allOf e cols : CItem) =
      ( e.yield ++ symT (c% ".") :: symT (c% "*") :: (flag (!cols.isEmpty) [kwT (c% "AS")] ++ columns cols)) := rfl
theorem CItem_yield_all :
    CItem.yield (.all : CItem) =
      ( [symT (c% "*")]) := rfl
theorem CItem_yields_nil :
    CItem.yields ([] : List CItem) =
      ( []) := rfl
theorem CItem_yields_cons (s) (ss) :
    CItem.yields (s :: ss : List CItem) =
      ( s.yield :: CItem.yields ss) := rfl
theorem CWinDef_yields_nil :
    CWinDef.yields ([] : List CWinDef) =
      ( []) := rfl
theorem CWinDef_yields_cons (n) (w) (ws) :
    CWinDef.yields (.mk n w :: ws : List CWinDef) =
      ( (n :: kwT (c% "AS") :: w.yield) :: CWinDef.yields ws) := rfl
theorem CQ_yield_mk (rc) (w) (b) :
    CQ.yield (.mk rc w b : CQ) =
      ( clause (kwT (c% "WITH") :: flag rc [kwT (c% "RECURSIVE")]) (CNamed.yields w) ++ b.yield) := rfl
theorem CNamed_yields_nil :
    CNamed.yields ([] : List CNamed) =
      ( []) := rfl
theorem CNamed_yields_cons (n) (cols) (q) (ns) :
    CNamed.yields (.mk n cols q :: ns : List CNamed) =
      ( (n :: (columns cols ++ kwT (c% "AS") :: inParens q.yield)) :: CNamed.yields ns) := rfl
theorem CQN_yield_mk (t) (ob) (off) (lim) :
    CQN.yield (.mk t ob off lim : CQN) =
      ( t.yield ++ (orderPart (CSort.yields ob) ++ (offsetPart off ++ lim.yield))) := rfl
theorem CQT_yield_set (op) (q) (l) (r) :
    CQT.yield (.set op q l r : CQT) =
      ( l.yield ++ op :: (q.toList ++ r.yield)) := rfl
theorem CQT_yield_spec (q) (items) (fr) (wh) (gq) (gs) (hv) (ws) :
    CQT.yield (.spec q items fr wh gq gs hv ws : CQT) =
      ( kwT (c% "SELECT") :: (q.toList ++ (commas (CItem.yields items) ++ (clause [kwT (c% "FROM")] (CR.yields fr) ++ (optPart [kwT (c% "WHERE")] (CE.yieldOpt wh) ++ (clause (kwT (c% "GROUP") :: kwT (c% "BY") :: gq.toList) (CGrp.yields gs) ++ (optPart [kwT (c% "HAVING")] (CE.yieldOpt hv) ++ clause [kwT (c% "WINDOW")] (CWinDef.yields ws)))))))) := rfl
theorem CQT_yield_table (n) :
    CQT.yield (.table n : CQT) =
      ( kwT (c% "TABLE") :: qname n) := rfl
theorem CQT_yield_values (es) :
    CQT.yield (.values es : CQT) =
      ( kwT (c% "VALUES") :: commas (CE.yields es)) := rfl
theorem CQT_yield_sub (q) :
    CQT.yield (.sub q : CQT) =
      ( inParens q.yield) := rfl
theorem CR_yield_cross (l) (r) :
    CR.yield (.cross l r : CR) =
      ( l.yield ++ kwT (c% "CROSS") :: kwT (c% "JOIN") :: r.yield) := rfl
theorem CR_yield_join (l) (t) (r) (c) :
    CR.yield (.join l t r c : CR) =
      ( l.yield ++ (t.yield ++ (r.yield ++ c.yield))) := rfl
theorem CR_yield_natural (l) (t) (r) :
    CR.yield (.natural l t r : CR) =
      ( l.yield ++ kwT (c% "NATURAL") :: (t.yield ++ r.yield)) := rfl
theorem CR_yield_sample (r) (t) (e) :
    CR.yield (.sample r t e : CR) =
      ( r.yield ++ kwT (c% "TABLESAMPLE") :: t :: inParens e.yield) := rfl
theorem CR_yield_alias (r) (b) (n) (cols) :
    CR.yield (.alias r b n cols : CR) =
      ( r.yield ++ (aliasPart b (some n) ++ columns cols)) := rfl
theorem CR_yield_table (n) :
    CR.yield (.table n : CR) =
      ( qname n) := rfl
theorem CR_yield_sub (q) :
    CR.yield (.sub q : CR) =
      ( inParens q.yield) := rfl
theorem CR_yield_unnest (es) (o) :
    CR.yield (.unnest es o : CR) =
      ( kwT (c% "UNNEST") :: (inParens (commas (CE.yields es)) ++ flag o [kwT (c% "WITH"), kwT (c% "ORDINALITY")])) := rfl
theorem CR_yield_lateral (q) :
    CR.yield (.lateral q : CR) =
      ( kwT (c% "LATERAL") :: inParens q.yield) := rfl
theorem CR_yield_paren (r) :
    CR.yield (.paren r : CR) =
      ( inParens r.yield) := rfl
theorem CR_yields_nil :
    CR.yields ([] : List CR) =
      ( []) := rfl
theorem CR_yields_cons (s) (ss) :
    CR.yields (s :: ss : List CR) =
      ( s.yield :: CR.yields ss) := rfl
theorem CCrit_yield_on (e) :
    CCrit.yield (.on e : CCrit) =
      ( kwT (c% "ON") :: e.yield) := rfl
theorem CCrit_yield_using (cols) :
    CCrit.yield (.using cols : CCrit) =
      ( kwT (c% "USING") :: columns cols) := rfl

end Treeno
