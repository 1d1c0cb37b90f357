import Verif.Lemmas.CstOf
/-!
# Equation lemmas of the functions in `Verif/Lemmas/CstOf.lean`, one per match arm (all by `rfl`)
-/
set_option linter.unusedVariables false
namespace Treeno
open Spec

theorem Expr_cst_lit (neg) (v) (u1_) :
    Expr.cst neg (.lit v u1_ : Expr) =
      ( litCst v) := rfl
theorem Expr_cst_field (neg) (n) (t) (u1_) :
    Expr.cst neg (.field n t u1_ : Expr) =
      ( fieldCst n (truthy t)) := rfl
theorem Expr_cst_fieldOf (neg) (u1_) (u2_) (u3_) :
    Expr.cst neg (.fieldOf u1_ u2_ u3_ : Expr) =
      ( .param) := rfl
theorem Expr_cst_alias (neg) (v) (u1_) :
    Expr.cst neg (.alias v u1_ : Expr) =
      ( v.cst false) := rfl
theorem Expr_cst_star (neg) (u1_) (u2_) :
    Expr.cst neg (.star u1_ u2_ : Expr) =
      ( .param) := rfl
theorem Expr_cst_starOf (neg) (u1_) (u2_) :
    Expr.cst neg (.starOf u1_ u2_ : Expr) =
      ( .param) := rfl
theorem Expr_cst_aliasedStar (neg) (u1_) (u2_) :
    Expr.cst neg (.aliasedStar u1_ u2_ : Expr) =
      ( .param) := rfl
theorem Expr_cst_var (neg) (n) :
    Expr.cst neg (.var n : Expr) =
      ( .col (wordOf n)) := rfl
theorem Expr_cst_lam (neg) (ins) (b) :
    Expr.cst neg (.lam ins b : Expr) =
      ( .lam (decide (ins.length > 1)) (ins.map wordOf) (b.cst false)) := rfl
theorem Expr_cst_un (neg) (op) (v) :
    Expr.cst neg (.un op v : Expr) =
      ( signCst op (wrapC (needsParen (some 8) v.prec true) (v.cst false))) := rfl
theorem Expr_cst_bin (neg) (op) (l) (r) :
    Expr.cst neg (.bin op l r : Expr) =
      ( binCst neg op (wrapC (needsParen op.prec l.prec true) (l.cst false)) (wrapC (needsParen op.prec r.prec false) (r.cst false))) := rfl
theorem Expr_cst_not (neg) (v) :
    Expr.cst neg (.not v : Expr) =
      ( if v.negatable then v.cst true else .not_ (wrapC (needsParen (some 2) v.prec true) (v.cst false))) := rfl
theorem Expr_cst_isNull (neg) (v) :
    Expr.cst neg (.isNull v : Expr) =
      ( .isNull neg (wrapC (needsParen (some 3) v.prec true) (v.cst false))) := rfl
theorem Expr_cst_between (neg) (v) (l) (u) :
    Expr.cst neg (.between v l u : Expr) =
      ( .between neg (wrapC (needsParen (some 3) v.prec true) (v.cst false)) (wrapC (needsParen (some 3) l.prec true) (l.cst false)) (wrapC (needsParen (some 3) u.prec true) (u.cst false))) := rfl
theorem Expr_cst_array (neg) (vs) :
    Expr.cst neg (.array vs : Expr) =
      ( .array (Expr.csts vs)) := rfl
theorem Expr_cst_inQuery (neg) (v) (q) :
    Expr.cst neg (.inQuery v q : Expr) =
      ( .inSub neg (wrapC (needsParen (some 3) v.prec true) (v.cst false)) q.cst) := rfl
theorem Expr_cst_inList (neg) (v) (es) :
    Expr.cst neg (.inList v es : Expr) =
      ( .inList neg (wrapC (needsParen (some 3) v.prec true) (v.cst false)) (Expr.csts es)) := rfl
theorem Expr_cst_like (neg) (v) (p) (e) :
    Expr.cst neg (.like v p e : Expr) =
      ( .like neg (wrapC (needsParen (some 3) v.prec true) (v.cst false)) (wrapC (needsParen (some 3) p.prec true) (p.cst false)) (Expr.cstOpt e)) := rfl
theorem Expr_cst_typeCtor (neg) (v) (t) :
    Expr.cst neg (.typeCtor v t : Expr) =
      ( .typeCtor (wordOf t) (.basic (strTok v))) := rfl
theorem Expr_cst_row (neg) (vs) :
    Expr.cst neg (.row vs : Expr) =
      ( .row (Expr.csts vs)) := rfl
theorem Expr_cst_interval (neg) (u1_) (u2_) (u3_) :
    Expr.cst neg (.interval u1_ u2_ u3_ : Expr) =
      ( .param) := rfl
theorem Expr_cst_cast (neg) (tr) (e) (t) :
    Expr.cst neg (.cast tr e t : Expr) =
      ( .cast tr (e.cst false) (tyCst t) (tyToks t)) := rfl
theorem Expr_cst_subscript (neg) (v) (i) :
    Expr.cst neg (.subscript v i : Expr) =
      ( .subscript (v.cst false) (i.cst false)) := rfl
theorem Expr_cst_case (neg) (v) (bs) (e) :
    Expr.cst neg (.case v bs e : Expr) =
      ( .case (Expr.cstOpt v) (Expr.cstWhens bs) (Expr.cstOpt e)) := rfl
theorem Expr_cst_func (neg) (f) (as) :
    Expr.cst neg (.func f as : Expr) =
      ( .call [wordOf f.name] none (Expr.csts as) [] none none none) := rfl
theorem Expr_cst_agg (neg) (f) (as) (ob) (fl) (w) (ign) :
    Expr.cst neg (.agg f as ob fl w ign : Expr) =
      ( aggCst f (isStarArg as) (starArg as) (Expr.csts as) (Ord.csts ob) (Expr.cstOpt fl) (Win.cstOpt w) ign) := rfl
theorem Expr_cst_listagg (neg) (v) (sep) (ov) (ob) :
    Expr.cst neg (.listagg v sep ov ob : Expr) =
      ( .listagg none (v.cst false) (sepCst sep) (overflowCst ov) (Ord.csts ob)) := rfl
theorem Expr_cst_curTime (neg) (f) (p) :
    Expr.cst neg (.curTime f p : Expr) =
      ( .dateTime (kwT f.name) (precCst p)) := rfl
theorem Expr_cst_session (neg) (f) :
    Expr.cst neg (.session f : Expr) =
      ( sessCst f) := rfl
theorem Expr_cst_normalize (neg) (u1_) (u2_) :
    Expr.cst neg (.normalize u1_ u2_ : Expr) =
      ( .param) := rfl
theorem Expr_cst_query (neg) (u1_) :
    Expr.cst neg (.query u1_ : Expr) =
      ( .param) := rfl
theorem Expr_cstOpt_none :
    Expr.cstOpt (none : Option Expr) =
      ( none) := rfl
theorem Expr_cstOpt_some (e) :
    Expr.cstOpt (some e : Option Expr) =
      ( some (e.cst false)) := rfl
theorem Win_cstOpt_none :
    Win.cstOpt (none : Option Win) =
      ( none) := rfl
theorem Win_cstOpt_some (w) :
    Win.cstOpt (some w : Option Win) =
      ( some w.cst) := rfl
theorem Crit_cstOpt_none :
    Crit.cstOpt (none : Option Crit) =
      ( none) := rfl
theorem Crit_cstOpt_some (c) :
    Crit.cstOpt (some c : Option Crit) =
      ( some c.cst) := rfl
theorem GroupBy_cstOpt_none :
    GroupBy.cstOpt (none : Option GroupBy) =
      ( []) := rfl
theorem GroupBy_cstOpt_some (g) :
    GroupBy.cstOpt (some g : Option GroupBy) =
      ( g.cst) := rfl
theorem Rel_cstOpt_none :
    Rel.cstOpt (none : Option Rel) =
      ( []) := rfl
theorem Rel_cstOpt_some (r) :
    Rel.cstOpt (some r : Option Rel) =
      ( [r.cst]) := rfl
theorem Expr_csts_nil :
    Expr.csts ([] : List Expr) =
      ( []) := rfl
theorem Expr_csts_cons (e) (es) :
    Expr.csts (e :: es : List Expr) =
      ( e.cst false :: Expr.csts es) := rfl
theorem Expr_items_nil :
    Expr.items ([] : List Expr) =
      ( []) := rfl
theorem Expr_items_cons (e) (es) :
    Expr.items (e :: es : List Expr) =
      ( itemCst e (e.cst false) :: Expr.items es) := rfl
theorem Expr_cstWhens_nil :
    Expr.cstWhens ([] : List (Expr × Expr)) =
      ( []) := rfl
theorem Expr_cstWhens_cons (c) (v) (bs) :
    Expr.cstWhens ((c, v) :: bs : List (Expr × Expr)) =
      ( .mk (c.cst false) (v.cst false) :: Expr.cstWhens bs) := rfl
theorem Ord_cst_mk (v) (d) (nf) :
    Ord.cst (.mk v d nf : Ord) =
      ( .mk (v.cst false) (if d then some (kwT (c% "DESC")) else none) (if nf then some (kwT (c% "FIRST")) else none)) := rfl
theorem Ord_csts_nil :
    Ord.csts ([] : List Ord) =
      ( []) := rfl
theorem Ord_csts_cons (x) (xs) :
    Ord.csts (x :: xs : List Ord) =
      ( x.cst :: Ord.csts xs) := rfl
theorem Bound_cst_bounded (t) (e) :
    Bound.cst (.bounded t e : Bound) =
      ( .bounded (e.cst false) (kwT t.text)) := rfl
theorem Bound_cst_unbounded (t) :
    Bound.cst (.unbounded t : Bound) =
      ( .unbounded (kwT t.text)) := rfl
theorem Bound_cst_current :
    Bound.cst (.current : Bound) =
      ( .current) := rfl
theorem Win_cst_mk (p) (ob) (ps) (f) (st) (en) :
    Win.cst (.mk p ob ps f st en : Win) =
      ( .spec ((truthy p).map wordOf) (Expr.csts ps) (Ord.csts ob) (.between (kwT f.text) st.cst en.cst)) := rfl
theorem Grp_cst_set (vs) :
    Grp.cst (.set vs : Grp) =
      ( .single (setCst (Expr.csts vs))) := rfl
theorem Grp_cst_sets (gs) :
    Grp.cst (.sets gs : Grp) =
      ( .sets (Expr.cstLists gs)) := rfl
theorem Grp_cst_cube (vs) :
    Grp.cst (.cube vs : Grp) =
      ( .cube (Expr.csts vs)) := rfl
theorem Grp_cst_rollup (vs) :
    Grp.cst (.rollup vs : Grp) =
      ( .rollup (Expr.csts vs)) := rfl
theorem Expr_cstLists_nil :
    Expr.cstLists ([] : List (List Expr)) =
      ( []) := rfl
theorem Expr_cstLists_cons (vs) (gs) :
    Expr.cstLists (vs :: gs : List (List Expr)) =
      ( setCst (Expr.csts vs) :: Expr.cstLists gs) := rfl
theorem Grp_csts_nil :
    Grp.csts ([] : List Grp) =
      ( []) := rfl
theorem Grp_csts_cons (g) (gs) :
    Grp.csts (g :: gs : List Grp) =
      ( g.cst :: Grp.csts gs) := rfl
theorem GroupBy_cst_mk (gs) (u1_) :
    GroupBy.cst (.mk gs u1_ : GroupBy) =
      ( Grp.csts gs) := rfl
theorem Query_cst_mk (body) (off) (lim) (ob) (w) :
    Query.cst (.mk body off lim ob w : Query) =
      ( queryCst body.isSet body.cst (rowsTok off) (rowsTok lim) (Ord.csts ob) (Named.csts w)) := rfl
theorem QBody_cst_select (items) (fr) (wh) (gb) (hv) (d) (wins) :
    QBody.cst (.select items fr wh gb hv d wins : QBody) =
      ( .spec (distinctTok d) (Expr.items items) (Rel.cstOpt fr) (Expr.cstOpt wh) (groupQuant gb) (GroupBy.cstOpt gb) (Expr.cstOpt hv) (Win.cstNamed wins)) := rfl
theorem QBody_cst_set (k) (l) (r) (d) :
    QBody.cst (.set k l r d : QBody) =
      ( .set (kwT k.text) (some (kwT (quantText d))) (.sub l.cst.noWith) (.sub r.cst.noWith)) := rfl
theorem QBody_cst_table (t) :
    QBody.cst (.table t : QBody) =
      ( .table t.nameToks) := rfl
theorem QBody_cst_values (es) :
    QBody.cst (.values es : QBody) =
      ( .values (Expr.csts es)) := rfl
theorem Win_cstNamed_nil :
    Win.cstNamed ([] : List (Str × Win)) =
      ( []) := rfl
theorem Win_cstNamed_cons (n) (w) (ws) :
    Win.cstNamed ((n, w) :: ws : List (Str × Win)) =
      ( .mk (wordOf n) w.cst :: Win.cstNamed ws) := rfl
theorem Named_cst_mk (r) (a) (cols) :
    Named.cst (.mk r a cols : Named) =
      ( .alias r.cst false (nameTok a) (cols.map wordOf)) := rfl
theorem Named_cstWith_mk (r) (a) (u1_) :
    Named.cstWith (.mk r a u1_ : Named) =
      ( .mk (nameTok a) [] r.qcst) := rfl
theorem Named_csts_nil :
    Named.csts ([] : List Named) =
      ( []) := rfl
theorem Named_csts_cons (n) (ns) :
    Named.csts (n :: ns : List Named) =
      ( n.cstWith :: Named.csts ns) := rfl
theorem Rel_cst_table (t) :
    Rel.cst (.table t : Rel) =
      ( .table t.nameToks) := rfl
theorem Rel_cst_query (q) :
    Rel.cst (.query q : Rel) =
      ( .sub q.cst) := rfl
theorem Rel_cst_aliased (n) :
    Rel.cst (.aliased n : Rel) =
      ( n.cst) := rfl
theorem Rel_cst_join (l) (r) (t) (nat) (cr) :
    Rel.cst (.join l r t nat cr : Rel) =
      ( joinCst t nat l.cst r.cst (Crit.cstOpt cr)) := rfl
theorem Rel_cst_unnest (as) (ord) :
    Rel.cst (.unnest as ord : Rel) =
      ( .unnest (Expr.csts as) ord) := rfl
theorem Rel_cst_lateral (q) :
    Rel.cst (.lateral q : Rel) =
      ( .lateral q.cst) := rfl
theorem Rel_cst_sample (r) (t) (p) :
    Rel.cst (.sample r t p : Rel) =
      ( .sample (wrapR r.isJoin r.cst) (kwT t.text) (p.cst false)) := rfl
theorem Rel_qcst_table (t) :
    Rel.qcst (.table t : Rel) =
      ( .mk false [] (.mk (.table t.nameToks) [] none .none)) := rfl
theorem Rel_qcst_query (q) :
    Rel.qcst (.query q : Rel) =
      ( q.cst) := rfl
theorem Rel_qcst_aliased (u1_) :
    Rel.qcst (.aliased u1_ : Rel) =
      ( .mk false [] (.mk (.values []) [] none .none)) := rfl
theorem Rel_qcst_join (u1_) (u2_) (u3_) (u4_) (u5_) :
    Rel.qcst (.join u1_ u2_ u3_ u4_ u5_ : Rel) =
      ( .mk false [] (.mk (.values []) [] none .none)) := rfl
theorem Rel_qcst_unnest (u1_) (u2_) :
    Rel.qcst (.unnest u1_ u2_ : Rel) =
      ( .mk false [] (.mk (.values []) [] none .none)) := rfl
theorem Rel_qcst_lateral (u1_) :
    Rel.qcst (.lateral u1_ : Rel) =
      ( .mk false [] (.mk (.values []) [] none .none)) := rfl
theorem Rel_qcst_sample (u1_) (u2_) (u3_) :
    Rel.qcst (.sample u1_ u2_ u3_ : Rel) =
      ( .mk false [] (.mk (.values []) [] none .none)) := rfl
theorem Crit_cst_using (cols) :
    Crit.cst (.using cols : Crit) =
      ( .using (cols.map wordOf)) := rfl
theorem Crit_cst_on (e) :
    Crit.cst (.on e : Crit) =
      ( .on (e.cst false)) := rfl

end Treeno
