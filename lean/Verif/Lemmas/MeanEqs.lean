import Verif.Spec.Meaning
/-!
# Equation lemmas of the functions in `Verif/Spec/Meaning.lean`, one per match arm (all by `rfl`)
-/
set_option linter.unusedVariables false
namespace Treeno
open Spec

theorem Expr_mean_lit (M) (v) (u1_) :
    Expr.mean M (.lit v u1_ : Expr) =
      ( litMeaning v) := rfl
theorem Expr_mean_field (M) (n) (t) (u1_) :
    Expr.mean M (.field n t u1_ : Expr) =
      ( Model.const (.column (truthy t) n)) := rfl
theorem Expr_mean_fieldOf (M) (n) (b) (u1_) :
    Expr.mean M (.fieldOf n b u1_ : Expr) =
      ( M.op (.part n) [b.mean M]) := rfl
theorem Expr_mean_alias (M) (v) (n) :
    Expr.mean M (.alias v n : Expr) =
      ( M.op (.alias n) [v.mean M]) := rfl
theorem Expr_mean_star (M) (t) (u1_) :
    Expr.mean M (.star t u1_ : Expr) =
      ( Model.const (.star (truthy t))) := rfl
theorem Expr_mean_starOf (M) (b) (u1_) :
    Expr.mean M (.starOf b u1_ : Expr) =
      ( M.op .starOf [b.mean M]) := rfl
theorem Expr_mean_aliasedStar (M) (s) (as) :
    Expr.mean M (.aliasedStar s as : Expr) =
      ( M.op (.starAliases as) [s.mean M]) := rfl
theorem Expr_mean_var (M) (n) :
    Expr.mean M (.var n : Expr) =
      ( Model.const (.column none n)) := rfl
theorem Expr_mean_lam (M) (ins) (b) :
    Expr.mean M (.lam ins b : Expr) =
      ( M.op (.lambda ins) [b.mean M]) := rfl
theorem Expr_mean_un (M) (op) (v) :
    Expr.mean M (.un op v : Expr) =
      ( signMeaning op (v.mean M)) := rfl
theorem Expr_mean_bin (M) (op) (l) (r) :
    Expr.mean M (.bin op l r : Expr) =
      ( Model.binary op (l.mean M) (r.mean M)) := rfl
theorem Expr_mean_not (M) (v) :
    Expr.mean M (.not v : Expr) =
      ( Model.not (v.mean M)) := rfl
theorem Expr_mean_isNull (M) (v) :
    Expr.mean M (.isNull v : Expr) =
      ( Model.isNullD (v.mean M)) := rfl
theorem Expr_mean_between (M) (v) (l) (u) :
    Expr.mean M (.between v l u : Expr) =
      ( Model.betweenD (v.mean M) (l.mean M) (u.mean M)) := rfl
theorem Expr_mean_array (M) (vs) :
    Expr.mean M (.array vs : Expr) =
      ( M.op .array (Expr.means M vs)) := rfl
theorem Expr_mean_inQuery (M) (v) (q) :
    Expr.mean M (.inQuery v q : Expr) =
      ( Model.inRowsD (v.mean M) (q.mean M)) := rfl
theorem Expr_mean_inList (M) (v) (es) :
    Expr.mean M (.inList v es : Expr) =
      ( Model.inListD (v.mean M) (Expr.means M es)) := rfl
theorem Expr_mean_like (M) (v) (p) (e) :
    Expr.mean M (.like v p e : Expr) =
      ( Model.likeD (v.mean M) (p.mean M) (Expr.meanOpt M e)) := rfl
theorem Expr_mean_typeCtor (M) (v) (t) :
    Expr.mean M (.typeCtor v t : Expr) =
      ( Model.const (.typed t v)) := rfl
theorem Expr_mean_row (M) (vs) :
    Expr.mean M (.row vs : Expr) =
      ( M.op .row (Expr.means M vs)) := rfl
theorem Expr_mean_interval (M) (v) (f) (t) :
    Expr.mean M (.interval v f t : Expr) =
      ( intervalMeaning false v f t) := rfl
theorem Expr_mean_cast (M) (tr) (e) (t) :
    Expr.mean M (.cast tr e t : Expr) =
      ( M.op (.cast tr t) [e.mean M]) := rfl
theorem Expr_mean_subscript (M) (v) (i) :
    Expr.mean M (.subscript v i : Expr) =
      ( M.op .subscript [v.mean M, i.mean M]) := rfl
theorem Expr_mean_case (M) (v) (bs) (e) :
    Expr.mean M (.case v bs e : Expr) =
      ( M.op .case [Model.opt (Expr.meanOpt M v), Model.list (Expr.meanWhens M bs), Model.opt (Expr.meanOpt M e)]) := rfl
theorem Expr_mean_func (M) (f) (as) :
    Expr.mean M (.func f as : Expr) =
      ( M.op (.call f.name false) [Model.list (Expr.means M as), Model.list [], Model.opt none, Model.opt none]) := rfl
theorem Expr_mean_agg (M) (f) (as) (ob) (fl) (w) (ign) :
    Expr.mean M (.agg f as ob fl w ign : Expr) =
      ( M.op (.call f.name ign) [Model.list (Expr.means M as), Model.list (Ord.means M ob), Model.opt (Expr.meanOpt M fl), Model.opt (Win.meanOpt M w)]) := rfl
theorem Expr_mean_listagg (M) (v) (sep) (ov) (ob) :
    Expr.mean M (.listagg v sep ov ob : Expr) =
      ( M.op (.listagg sep ov) (v.mean M :: Ord.means M ob)) := rfl
theorem Expr_mean_curTime (M) (f) (p) :
    Expr.mean M (.curTime f p : Expr) =
      ( Model.const (.current f.name p)) := rfl
theorem Expr_mean_session (M) (f) :
    Expr.mean M (.session f : Expr) =
      ( Model.const (.session f.name)) := rfl
theorem Expr_mean_normalize (M) (v) (fo) :
    Expr.mean M (.normalize v fo : Expr) =
      ( M.op (.normalize (fo.map formName)) [v.mean M]) := rfl
theorem Expr_mean_query (M) (q) :
    Expr.mean M (.query q : Expr) =
      ( q.mean M) := rfl
theorem Expr_meanOpt_none (M) :
    Expr.meanOpt M (none : Option Expr) =
      ( none) := rfl
theorem Expr_meanOpt_some (M) (e) :
    Expr.meanOpt M (some e : Option Expr) =
      ( some (e.mean M)) := rfl
theorem Win_meanOpt_none (M) :
    Win.meanOpt M (none : Option Win) =
      ( none) := rfl
theorem Win_meanOpt_some (M) (w) :
    Win.meanOpt M (some w : Option Win) =
      ( some (w.mean M)) := rfl
theorem GroupBy_meanOpt_none (M) :
    GroupBy.meanOpt M (none : Option GroupBy) =
      ( none) := rfl
theorem GroupBy_meanOpt_some (M) (g) :
    GroupBy.meanOpt M (some g : Option GroupBy) =
      ( some (g.mean M)) := rfl
theorem Rel_meanOpt_none (M) :
    Rel.meanOpt M (none : Option Rel) =
      ( none) := rfl
theorem Rel_meanOpt_some (M) (r) :
    Rel.meanOpt M (some r : Option Rel) =
      ( some (r.mean M)) := rfl
theorem Crit_meanOpt_none (M) :
    Crit.meanOpt M (none : Option Crit) =
      ( none) := rfl
theorem Crit_meanOpt_some (M) (c) :
    Crit.meanOpt M (some c : Option Crit) =
      ( some (c.mean M)) := rfl
theorem Expr_means_nil (M) :
    Expr.means M ([] : List Expr) =
      ( []) := rfl
theorem Expr_means_cons (M) (e) (es) :
    Expr.means M (e :: es : List Expr) =
      ( e.mean M :: Expr.means M es) := rfl
theorem Expr_meanWhens_nil (M) :
    Expr.meanWhens M ([] : List (Expr × Expr)) =
      ( []) := rfl
theorem Expr_meanWhens_cons (M) (c) (v) (bs) :
    Expr.meanWhens M ((c, v) :: bs : List (Expr × Expr)) =
      ( M.op .branch [c.mean M, v.mean M] :: Expr.meanWhens M bs) := rfl
theorem Expr_meanLists_nil (M) :
    Expr.meanLists M ([] : List (List Expr)) =
      ( []) := rfl
theorem Expr_meanLists_cons (M) (vs) (gs) :
    Expr.meanLists M (vs :: gs : List (List Expr)) =
      ( M.op .group (Expr.means M vs) :: Expr.meanLists M gs) := rfl
theorem Ord_mean_mk (M) (v) (d) (nf) :
    Ord.mean M (.mk v d nf : Ord) =
      ( M.op (.order d nf) [v.mean M]) := rfl
theorem Ord_means_nil (M) :
    Ord.means M ([] : List Ord) =
      ( []) := rfl
theorem Ord_means_cons (M) (x) (xs) :
    Ord.means M (x :: xs : List Ord) =
      ( x.mean M :: Ord.means M xs) := rfl
theorem Bound_mean_bounded (M) (t) (e) :
    Bound.mean M (.bounded t e : Bound) =
      ( M.op (.bounded t) [e.mean M]) := rfl
theorem Bound_mean_unbounded (M) (t) :
    Bound.mean M (.unbounded t : Bound) =
      ( Model.const (.unbounded t)) := rfl
theorem Bound_mean_current (M) :
    Bound.mean M (.current : Bound) =
      ( Model.const .currentRow) := rfl
theorem Win_mean_mk (M) (p) (ob) (ps) (f) (st) (en) :
    Win.mean M (.mk p ob ps f st en : Win) =
      ( M.op (.window (truthy p) f) [Model.list (Ord.means M ob), Model.list (Expr.means M ps), st.mean M, en.mean M]) := rfl
theorem Grp_mean_set (M) (vs) :
    Grp.mean M (.set vs : Grp) =
      ( M.op .group (Expr.means M vs)) := rfl
theorem Grp_mean_sets (M) (gs) :
    Grp.mean M (.sets gs : Grp) =
      ( M.op .groups (Expr.meanLists M gs)) := rfl
theorem Grp_mean_cube (M) (vs) :
    Grp.mean M (.cube vs : Grp) =
      ( M.op .cube (Expr.means M vs)) := rfl
theorem Grp_mean_rollup (M) (vs) :
    Grp.mean M (.rollup vs : Grp) =
      ( M.op .rollup (Expr.means M vs)) := rfl
theorem Grp_means_nil (M) :
    Grp.means M ([] : List Grp) =
      ( []) := rfl
theorem Grp_means_cons (M) (g) (gs) :
    Grp.means M (g :: gs : List Grp) =
      ( g.mean M :: Grp.means M gs) := rfl
theorem GroupBy_mean_mk (M) (gs) (d) :
    GroupBy.mean M (.mk gs d : GroupBy) =
      ( M.op (.groupBy d) (Grp.means M gs)) := rfl
theorem Query_mean_mk (M) (b) (off) (lim) (ob) (w) :
    Query.mean M (.mk b off lim ob w : Query) =
      ( Model.withs false (Named.meanWiths M w) (Model.limited lim (Model.offset off (Model.ordered (Ord.means M ob) (b.mean M))))) := rfl
theorem QBody_mean_select (M) (items) (fr) (wh) (gb) (hv) (d) (wins) :
    QBody.mean M (.select items fr wh gb hv d wins : QBody) =
      ( M.op (.select d) [Model.list (Expr.means M items), Model.opt (Rel.meanOpt M fr), Model.opt (Expr.meanOpt M wh), Model.opt (GroupBy.meanOpt M gb), Model.opt (Expr.meanOpt M hv), Model.list (Win.meanNamed M wins)]) := rfl
theorem QBody_mean_set (M) (k) (l) (r) (d) :
    QBody.mean M (.set k l r d : QBody) =
      ( M.op (.set k d) [l.mean M, r.mean M]) := rfl
theorem QBody_mean_table (M) (t) :
    QBody.mean M (.table t : QBody) =
      ( tableMeaning t) := rfl
theorem QBody_mean_values (M) (es) :
    QBody.mean M (.values es : QBody) =
      ( M.op .values (Expr.means M es)) := rfl
theorem Win_meanNamed_nil (M) :
    Win.meanNamed M ([] : List (Str × Win)) =
      ( []) := rfl
theorem Win_meanNamed_cons (M) (n) (w) (ws) :
    Win.meanNamed M ((n, w) :: ws : List (Str × Win)) =
      ( M.op (.named n) [w.mean M] :: Win.meanNamed M ws) := rfl
theorem Named_mean_mk (M) (r) (a) (cols) :
    Named.mean M (.mk r a cols : Named) =
      ( M.op (.relAlias a cols) [r.mean M]) := rfl
theorem Named_meanWith_mk (M) (r) (a) (cols) :
    Named.meanWith M (.mk r a cols : Named) =
      ( M.op (.common a cols) [r.mean M]) := rfl
theorem Named_meanWiths_nil (M) :
    Named.meanWiths M ([] : List Named) =
      ( []) := rfl
theorem Named_meanWiths_cons (M) (n) (ns) :
    Named.meanWiths M (n :: ns : List Named) =
      ( n.meanWith M :: Named.meanWiths M ns) := rfl
theorem Rel_mean_table (M) (t) :
    Rel.mean M (.table t : Rel) =
      ( tableMeaning t) := rfl
theorem Rel_mean_query (M) (q) :
    Rel.mean M (.query q : Rel) =
      ( q.mean M) := rfl
theorem Rel_mean_aliased (M) (n) :
    Rel.mean M (.aliased n : Rel) =
      ( n.mean M) := rfl
theorem Rel_mean_join (M) (l) (r) (t) (nat) (cr) :
    Rel.mean M (.join l r t nat cr : Rel) =
      ( M.op (.join t nat) [l.mean M, r.mean M, Model.opt (Crit.meanOpt M cr)]) := rfl
theorem Rel_mean_unnest (M) (as) (ord) :
    Rel.mean M (.unnest as ord : Rel) =
      ( M.op (.unnest ord) (Expr.means M as)) := rfl
theorem Rel_mean_lateral (M) (q) :
    Rel.mean M (.lateral q : Rel) =
      ( M.op .lateral [q.mean M]) := rfl
theorem Rel_mean_sample (M) (r) (t) (p) :
    Rel.mean M (.sample r t p : Rel) =
      ( M.op (.sample t) [r.mean M, p.mean M]) := rfl
theorem Crit_mean_using (M) (cols) :
    Crit.mean M (.using cols : Crit) =
      ( Model.const (.using cols)) := rfl
theorem Crit_mean_on (M) (e) :
    Crit.mean M (.on e : Crit) =
      ( M.op .on [e.mean M]) := rfl

end Treeno
