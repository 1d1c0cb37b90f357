import Verif.Sql
/-!
# Equation lemmas of the functions in `Verif/Sql.lean`, one per match arm (all by `rfl`)
-/
set_option linter.unusedVariables false
namespace Treeno

theorem Expr_sqlN_lit (neg) (o) (v) (u1_) :
    Expr.sqlN neg o (.lit v u1_ : Expr) =
      ( .ok (litText v)) := rfl
theorem Expr_sqlN_field (neg) (o) (n) (t) (u1_) :
    Expr.sqlN neg o (.field n t u1_ : Expr) =
      ( .ok (chainIdents [truthy t, some n])) := rfl
theorem Expr_sqlN_fieldOf (neg) (o) (n) (b) (u1_) :
    Expr.sqlN neg o (.fieldOf n b u1_ : Expr) =
      ( do
    let s ← b.sqlN false o
    .ok (chainIdents [some s, some n])) := rfl
theorem Expr_sqlN_alias (neg) (o) (v) (n) :
    Expr.sqlN neg o (.alias v n : Expr) =
      ( do
    let s ← v.sqlN false o
    .ok (s ++ c% " " ++ quoteIdent n)) := rfl
theorem Expr_sqlN_star (neg) (o) (t) (u1_) :
    Expr.sqlN neg o (.star t u1_ : Expr) =
      ( .ok (starPrefix t ++ c% "*")) := rfl
theorem Expr_sqlN_starOf (neg) (o) (b) (u1_) :
    Expr.sqlN neg o (.starOf b u1_ : Expr) =
      ( do
    let s ← b.sqlN false o
    .ok (s ++ c% ".*")) := rfl
theorem Expr_sqlN_aliasedStar (neg) (o) (st) (as) :
    Expr.sqlN neg o (.aliasedStar st as : Expr) =
      ( do
    let a ← joinStmts as o
    let s ← st.sqlN false o
    .ok (s ++ c% " (" ++ a ++ c% ")")) := rfl
theorem Expr_sqlN_var (neg) (o) (n) :
    Expr.sqlN neg o (.var n : Expr) =
      ( .ok n) := rfl
theorem Expr_sqlN_lam (neg) (o) (ins) (b) :
    Expr.sqlN neg o (.lam ins b : Expr) =
      ( do
    let i ← joinStmts ins o
    let s ← b.sqlN false o
    .ok ((if ins.length > 1 then parenS i else i) ++ c% " -> " ++ s)) := rfl
theorem Expr_sqlN_un (neg) (o) (op) (v) :
    Expr.sqlN neg o (.un op v : Expr) =
      ( do
    let s ← pemdas (some 8) v.prec true (v.sqlN false o) (v.sqlN false dfltOpts)
    .ok (op.text ++ s)) := rfl
theorem Expr_sqlN_bin (neg) (o) (op) (l) (r) :
    Expr.sqlN neg o (.bin op l r : Expr) =
      ( do
    let op' := if neg then op.flip else op
    let o' := if neg = true ∧ op = .ne then dfltOpts else o
    let a ← pemdas op'.prec l.prec true (l.sqlN false o') (l.sqlN false dfltOpts)
    let b ← pemdas op'.prec r.prec false (r.sqlN false o') (r.sqlN false dfltOpts)
    .ok (binText o' neg op' a b)) := rfl
theorem Expr_sqlN_not (neg) (o) (v) :
    Expr.sqlN neg o (.not v : Expr) =
      (
    if v.negatable then v.sqlN true o
    else do
      let s ← pemdas (some 2) v.prec true (v.sqlN false o) (v.sqlN false dfltOpts)
      .ok (c% "NOT " ++ s)) := rfl
theorem Expr_sqlN_isNull (neg) (o) (v) :
    Expr.sqlN neg o (.isNull v : Expr) =
      ( do
    let s ← pemdas (some 3) v.prec true (v.sqlN false o) (v.sqlN false dfltOpts)
    .ok (s ++ (if neg then c% " IS NOT NULL" else c% " IS NULL"))) := rfl
theorem Expr_sqlN_between (neg) (o) (v) (l) (u) :
    Expr.sqlN neg o (.between v l u : Expr) =
      ( do
    let a ← pemdas (some 3) v.prec true (v.sqlN false o) (v.sqlN false dfltOpts)
    let b ← pemdas (some 3) l.prec true (l.sqlN false o) (l.sqlN false dfltOpts)
    let c ← pemdas (some 3) u.prec true (u.sqlN false o) (u.sqlN false dfltOpts)
    .ok (a ++ notText neg ++ c% " BETWEEN " ++ b ++ c% " AND " ++ c)) := rfl
theorem Expr_sqlN_array (neg) (o) (vs) :
    Expr.sqlN neg o (.array vs : Expr) =
      ( do
    let s ← joinStmts (← Expr.sqls o vs) o
    .ok (c% "ARRAY[" ++ s ++ c% "]")) := rfl
theorem Expr_sqlN_inQuery (neg) (o) (v) (q) :
    Expr.sqlN neg o (.inQuery v q : Expr) =
      ( do
    let a ← pemdas (some 3) v.prec true (v.sqlN false o) (v.sqlN false dfltOpts)
    let s ← q.sql o
    .ok (a ++ notText neg ++ c% " IN (" ++ s ++ c% ")")) := rfl
theorem Expr_sqlN_inList (neg) (o) (v) (es) :
    Expr.sqlN neg o (.inList v es : Expr) =
      ( do
    let s ← joinStmts (← Expr.sqls o es) o
    let a ← pemdas (some 3) v.prec true (v.sqlN false o) (v.sqlN false dfltOpts)
    .ok (a ++ notText neg ++ c% " IN (" ++ s ++ c% ")")) := rfl
theorem Expr_sqlN_like (neg) (o) (v) (p) (e) :
    Expr.sqlN neg o (.like v p e : Expr) =
      ( do
    let a ← pemdas (some 3) v.prec true (v.sqlN false o) (v.sqlN false dfltOpts)
    let b ← pemdas (some 3) p.prec true (p.sqlN false o) (p.sqlN false dfltOpts)
    let c ← Expr.sqlOpt o e
    .ok (a ++ notText neg ++ c% " LIKE " ++ b ++ optText (c% " ESCAPE ") c)) := rfl
theorem Expr_sqlN_typeCtor (neg) (o) (v) (t) :
    Expr.sqlN neg o (.typeCtor v t : Expr) =
      ( .ok (t ++ c% " " ++ quoteLit v)) := rfl
theorem Expr_sqlN_row (neg) (o) (vs) :
    Expr.sqlN neg o (.row vs : Expr) =
      ( do
    let s ← joinStmts (← Expr.sqls o vs) o
    .ok (c% "(" ++ s ++ c% ")")) := rfl
theorem Expr_sqlN_interval (neg) (o) (v) (f) (t) :
    Expr.sqlN neg o (.interval v f t : Expr) =
      ( .ok (c% "INTERVAL " ++ v ++ c% " " ++ f ++ optText (c% " TO ") (truthy t))) := rfl
theorem Expr_sqlN_cast (neg) (o) (tr) (e) (t) :
    Expr.sqlN neg o (.cast tr e t : Expr) =
      ( do
    let s ← e.sqlN false o
    .ok ((if tr then c% "TRY_CAST(" else c% "CAST(") ++ s ++ c% " AS " ++ t.sql ++ c% ")")) := rfl
theorem Expr_sqlN_subscript (neg) (o) (v) (i) :
    Expr.sqlN neg o (.subscript v i : Expr) =
      ( do
    let s ← v.sqlN false o
    let j ← i.sqlN false o
    .ok (s ++ c% "[" ++ j ++ c% "]")) := rfl
theorem Expr_sqlN_case (neg) (o) (v) (bs) (e) :
    Expr.sqlN neg o (.case v bs e : Expr) =
      ( do
    let ws ← Expr.whens o bs
    let es ← Expr.sqlOpt o e
    let vs ← Expr.sqlOpt o v
    .ok (c% "CASE " ++ optText [] vs ++
      pad (spacing o ++ join (spacing o) (ws ++ (es.map (c% "ELSE " ++ ·)).toList)) 4 ++
      spacing o ++ c% "END")) := rfl
theorem Expr_sqlN_func (neg) (o) (f) (as) :
    Expr.sqlN neg o (.func f as : Expr) =
      ( do
    let s ← joinStmts (← Expr.sqls o as) o
    .ok (f.name ++ c% "(" ++ s ++ c% ")")) := rfl
theorem Expr_sqlN_agg (neg) (o) (f) (as) (ob) (fl) (w) (ign) :
    Expr.sqlN neg o (.agg f as ob fl w ign : Expr) =
      ( do
    let args ← joinStmts (← Expr.sqls o as) o
    let args ← aggArgs o args (← Ord.sqls o ob)
    let fs ← Expr.sqlOpt o fl
    let ws ← Win.sqlOpt o w
    let cs ← printEntries true (optEntry (c% "FILTER") (fs.map fun s => c% "(WHERE " ++ s ++ c% ")") ++
      (if ign then [(c% "IGNORE", c% "NULLS")] else []) ++ optEntry (c% "OVER") (ws.map parenS)) o
    .ok (f.name ++ c% "(" ++ args ++ c% ")" ++
      (if cs.isEmpty then [] else pad (spacing o ++ cs) o.spaces))) := rfl
theorem Expr_sqlN_listagg (neg) (o) (v) (sep) (ov) (ob) :
    Expr.sqlN neg o (.listagg v sep ov ob : Expr) =
      ( do
    let s ← v.sqlN false o
    let s ← listaggArgs o s sep ov
    let os ← Ord.sqls o ob
    let ot ← orderByText o os
    .ok (c% "LISTAGG(" ++ s ++ c% ")" ++
      pad (spacing o ++ (c% "WITHIN GROUP (" ++ ot ++ c% ")")) o.spaces)) := rfl
theorem Expr_sqlN_curTime (neg) (o) (f) (p) :
    Expr.sqlN neg o (.curTime f p : Expr) =
      ( .ok (curTimeText f p)) := rfl
theorem Expr_sqlN_session (neg) (o) (f) :
    Expr.sqlN neg o (.session f : Expr) =
      ( .ok f.name) := rfl
theorem Expr_sqlN_normalize (neg) (o) (u1_) (u2_) :
    Expr.sqlN neg o (.normalize u1_ u2_ : Expr) =
      ( .error .attributeError) := rfl
theorem Expr_sqlN_query (neg) (o) (q) :
    Expr.sqlN neg o (.query q : Expr) =
      ( q.sql o) := rfl
theorem Expr_sqlOpt_none (o) :
    Expr.sqlOpt o (none : Option Expr) =
      ( .ok none) := rfl
theorem Expr_sqlOpt_some (o) (e) :
    Expr.sqlOpt o (some e : Option Expr) =
      ( do
    let s ← e.sqlN false o
    .ok (some s)) := rfl
theorem Win_sqlOpt_none (o) :
    Win.sqlOpt o (none : Option Win) =
      ( .ok none) := rfl
theorem Win_sqlOpt_some (o) (e) :
    Win.sqlOpt o (some e : Option Win) =
      ( do
    let s ← e.sql o
    .ok (some s)) := rfl
theorem GroupBy_sqlOpt_none (o) :
    GroupBy.sqlOpt o (none : Option GroupBy) =
      ( .ok none) := rfl
theorem GroupBy_sqlOpt_some (o) (e) :
    GroupBy.sqlOpt o (some e : Option GroupBy) =
      ( do
    let s ← e.sql o
    .ok (some s)) := rfl
theorem Rel_sqlOpt_none (o) :
    Rel.sqlOpt o (none : Option Rel) =
      ( .ok none) := rfl
theorem Rel_sqlOpt_some (o) (e) :
    Rel.sqlOpt o (some e : Option Rel) =
      ( do
    let s ← e.sql o
    .ok (some s)) := rfl
theorem Crit_entriesOpt_none (o) :
    Crit.entriesOpt o (none : Option Crit) =
      ( .ok []) := rfl
theorem Crit_entriesOpt_some (o) (e) :
    Crit.entriesOpt o (some e : Option Crit) =
      ( e.entries o) := rfl
theorem Expr_sqls_nil (o) :
    Expr.sqls o ([] : List Expr) =
      ( .ok []) := rfl
theorem Expr_sqls_cons (o) (e) (es) :
    Expr.sqls o (e :: es : List Expr) =
      ( do
    let s ← e.sqlN false o
    let r ← Expr.sqls o es
    .ok (s :: r)) := rfl
theorem Expr_whens_nil (o) :
    Expr.whens o ([] : List (Expr × Expr)) =
      ( .ok []) := rfl
theorem Expr_whens_cons (o) (c) (v) (bs) :
    Expr.whens o ((c, v) :: bs : List (Expr × Expr)) =
      ( do
    let s ← c.sqlN false o
    let t ← v.sqlN false o
    let r ← Expr.whens o bs
    .ok ((c% "WHEN " ++ s ++ c% " THEN " ++ t) :: r)) := rfl
theorem Ord_sql_mk (o) (v) (d) (nf) :
    Ord.sql o (.mk v d nf : Ord) =
      ( do
    let s ← v.sqlN false o
    .ok (s ++ (if d then c% " DESC" else []) ++ (if nf then c% " NULLS FIRST" else []))) := rfl
theorem Ord_sqls_nil (o) :
    Ord.sqls o ([] : List Ord) =
      ( .ok []) := rfl
theorem Ord_sqls_cons (o) (e) (es) :
    Ord.sqls o (e :: es : List Ord) =
      ( do
    let s ← e.sql o
    let r ← Ord.sqls o es
    .ok (s :: r)) := rfl
theorem Bound_sql_bounded (o) (t) (e) :
    Bound.sql o (.bounded t e : Bound) =
      ( do
    let s ← e.sqlN false o
    .ok (s ++ c% " " ++ t.text)) := rfl
theorem Bound_sql_unbounded (o) (t) :
    Bound.sql o (.unbounded t : Bound) =
      ( .ok (c% "UNBOUNDED " ++ t.text)) := rfl
theorem Bound_sql_current (o) :
    Bound.sql o (.current : Bound) =
      ( .ok (c% "CURRENT ROW")) := rfl
theorem Win_sql_mk (o) (p) (ob) (ps) (f) (st) (en) :
    Win.sql o (.mk p ob ps f st en : Win) =
      ( do
    let pae ← listEntry o (c% "PARTITION") (c% "BY ") (← Expr.sqls o ps)
    let obe ← listEntry o (c% "ORDER") (c% "BY ") (← Ord.sqls o ob)
    let a ← st.sql o
    let b ← en.sql o
    printEntries true (parentEntry p ++ pae ++ obe ++
      [(f.text, join (c% " ") [c% "BETWEEN", a, c% "AND", b])]) o) := rfl
theorem Grp_sql_set (o) (vs) :
    Grp.sql o (.set vs : Grp) =
      ( do setText o (← Expr.sqls o vs)) := rfl
theorem Grp_sql_sets (o) (gs) :
    Grp.sql o (.sets gs : Grp) =
      ( do
    let s ← joinStmts (← Expr.setSqls o gs) o
    .ok (c% "GROUPING SETS (" ++ s ++ c% ")")) := rfl
theorem Grp_sql_cube (o) (vs) :
    Grp.sql o (.cube vs : Grp) =
      ( do
    let s ← joinStmts (← Expr.sqls o vs) o
    .ok (c% "CUBE (" ++ s ++ c% ")")) := rfl
theorem Grp_sql_rollup (o) (vs) :
    Grp.sql o (.rollup vs : Grp) =
      ( do
    let s ← joinStmts (← Expr.sqls o vs) o
    .ok (c% "ROLLUP (" ++ s ++ c% ")")) := rfl
theorem Expr_setSqls_nil (o) :
    Expr.setSqls o ([] : List (List Expr)) =
      ( .ok []) := rfl
theorem Expr_setSqls_cons (o) (vs) (gs) :
    Expr.setSqls o (vs :: gs : List (List Expr)) =
      ( do
    let s ← setText o (← Expr.sqls o vs)
    let r ← Expr.setSqls o gs
    .ok (s :: r)) := rfl
theorem Grp_sqls_nil (o) :
    Grp.sqls o ([] : List Grp) =
      ( .ok []) := rfl
theorem Grp_sqls_cons (o) (e) (es) :
    Grp.sqls o (e :: es : List Grp) =
      ( do
    let s ← e.sql o
    let r ← Grp.sqls o es
    .ok (s :: r)) := rfl
theorem GroupBy_sql_mk (o) (gs) (d) :
    GroupBy.sql o (.mk gs d : GroupBy) =
      ( do
    let s ← joinStmts (← Grp.sqls o gs) o
    .ok (if d then c% "DISTINCT " ++ s else s)) := rfl
theorem Query_sql_mk (o) (body) (off) (lim) (ob) (w) :
    Query.sql o (.mk body off lim ob w : Query) =
      ( body.sql o
    (do listEntry o (c% "WITH") [] (← Named.namedSqls o w))
    (do
      let oe ← listEntry o (c% "ORDER") (c% "BY ") (← Ord.sqls o ob)
      .ok (oe ++ rowsEntries off lim))) := rfl
theorem QBody_sql_select (o) (we) (ce) (items) (fr) (wh) (gb) (hv) (d) (wins) :
    QBody.sql o we ce (.select items fr wh gb hv d wins : QBody) =
      ( do
    let we ← we
    let s ← joinStmts (← Expr.sqls o items) o
    let se := [(c% "SELECT", if d then c% "DISTINCT " ++ s else s)]
    let fs ← Rel.sqlOpt o fr
    let wh' ← Expr.sqlOpt o wh
    let g ← GroupBy.sqlOpt o gb
    let h ← Expr.sqlOpt o hv
    let wie ← listEntry o (c% "WINDOW") [] (← Win.namedSqls o wins)
    let ce ← ce
    printEntries true (we ++ se ++ optEntry (c% "FROM") (fs.map (fromText fr)) ++
      optEntry (c% "WHERE") wh' ++ optEntry (c% "GROUP") (g.map (c% "BY " ++ ·)) ++
      optEntry (c% "HAVING") h ++ wie ++ ce) o) := rfl
theorem QBody_sql_set (o) (we) (ce) (k) (l) (r) (d) :
    QBody.sql o we ce (.set k l r d : QBody) =
      ( do
    let a ← l.sql o
    let b ← r.sql o
    .ok (relStr o true false a ++ spacing o ++ k.text ++ c% " " ++ quantText d ++ spacing o ++
      relStr o true false b)) := rfl
theorem QBody_sql_table (o) (we) (ce) (t) :
    QBody.sql o we ce (.table t : QBody) =
      ( do
    let we ← we
    let ce ← ce
    printEntries true (we ++ [(c% "TABLE", t.sql)] ++ ce) o) := rfl
theorem QBody_sql_values (o) (we) (ce) (es) :
    QBody.sql o we ce (.values es : QBody) =
      ( do
    let we ← we
    let s ← joinStmts (← Expr.sqls o es) o
    let ce ← ce
    printEntries true (we ++ [(c% "VALUES", s)] ++ ce) o) := rfl
theorem Win_namedSqls_nil (o) :
    Win.namedSqls o ([] : List (Str × Win)) =
      ( .ok []) := rfl
theorem Win_namedSqls_cons (o) (n) (w) (ws) :
    Win.namedSqls o ((n, w) :: ws : List (Str × Win)) =
      ( do
    let s ← w.sql o
    let r ← Win.namedSqls o ws
    .ok ((n ++ c% " AS " ++ parenS s) :: r)) := rfl
theorem Named_sql_mk (o) (r) (a) (cols) :
    Named.sql o (.mk r a cols : Named) =
      ( do
    let s ← r.sql o
    let c ← colsText o (c% " (") (c% ")") cols
    .ok (relStr o r.isQuery true s ++ c% " " ++ quoteIdent a ++ c)) := rfl
theorem Named_namedSql_mk (o) (r) (a) (cols) :
    Named.namedSql o (.mk r a cols : Named) =
      ( do
    let c ← colsText o (c% " ") [] cols
    let s ← r.sql o
    .ok (quoteIdent a ++ c ++ c% " AS " ++ relStr o r.isQuery true s)) := rfl
theorem Named_namedSqls_nil (o) :
    Named.namedSqls o ([] : List Named) =
      ( .ok []) := rfl
theorem Named_namedSqls_cons (o) (e) (es) :
    Named.namedSqls o (e :: es : List Named) =
      ( do
    let s ← e.namedSql o
    let r ← Named.namedSqls o es
    .ok (s :: r)) := rfl
theorem Rel_sql_table (o) (t) :
    Rel.sql o (.table t : Rel) =
      ( .ok t.sql) := rfl
theorem Rel_sql_query (o) (q) :
    Rel.sql o (.query q : Rel) =
      ( q.sql o) := rfl
theorem Rel_sql_aliased (o) (n) :
    Rel.sql o (.aliased n : Rel) =
      ( n.sql o) := rfl
theorem Rel_sql_join (o) (l) (r) (t) (nat) (cr) :
    Rel.sql o (.join l r t nat cr : Rel) =
      ( do
    let a ← l.sql o
    let b ← r.sql o
    let ce ← Crit.entriesOpt o cr
    printEntries false ([(relStr o l.isQuery true a, []),
      ((if nat then c% "NATURAL " else []) ++ t.text ++ c% " JOIN", relStr o r.isQuery true b)] ++ ce) o) := rfl
theorem Rel_sql_unnest (o) (as) (ord) :
    Rel.sql o (.unnest as ord : Rel) =
      ( do
    let s ← joinStmts (← Expr.sqls o as) o
    -- `str_builder += " WITH ORDINALITY"` adds one list element per character
    .ok (join (c% " ") ((c% "UNNEST(" ++ s ++ c% ")") ::
      (if ord then (c% " WITH ORDINALITY").map ([·]) else [])))) := rfl
theorem Rel_sql_lateral (o) (q) :
    Rel.sql o (.lateral q : Rel) =
      ( do
    let s ← q.sql o
    .ok (c% "LATERAL(" ++ s ++ c% ")")) := rfl
theorem Rel_sql_sample (o) (r) (t) (p) :
    Rel.sql o (.sample r t p : Rel) =
      ( do
    let s ← r.sql o
    let q ← p.sqlN false o
    .ok (relStr o (r.isQuery || r.isJoin) false s ++ c% " TABLESAMPLE " ++ t.text ++ c% "(" ++ q ++
      c% ")")) := rfl
theorem Crit_entries_using (o) (cols) :
    Crit.entries o (.using cols : Crit) =
      ( do
    let s ← joinStmts cols o
    .ok [(c% "USING", parenS s)]) := rfl
theorem Crit_entries_on (o) (e) :
    Crit.entries o (.on e : Crit) =
      ( do
    let s ← e.sqlN false o
    .ok [(c% "ON", pad s o.spaces)]) := rfl

end Treeno
