import Verif.Spec.Reread
/-!
# Equation lemmas of the functions in `Verif/Spec/Reread.lean`, one per match arm (all by `rfl`)
-/
set_option linter.unusedVariables false
namespace Treeno
open Spec

theorem Expr_reread_lit (v) (u1_) :
    Expr.reread (.lit v u1_ : Expr) =
      ( litOf v) := rfl
theorem Expr_reread_field (n) (t) (u1_) :
    Expr.reread (.field n t u1_ : Expr) =
      ( .field n (truthy t) .unknown) := rfl
theorem Expr_reread_fieldOf (n) (b) (u1_) :
    Expr.reread (.fieldOf n b u1_ : Expr) =
      ( .fieldOf n b.reread .unknown) := rfl
theorem Expr_reread_alias (v) (n) :
    Expr.reread (.alias v n : Expr) =
      ( .alias v.reread n) := rfl
theorem Expr_reread_star (t) (u1_) :
    Expr.reread (.star t u1_ : Expr) =
      ( .star (truthy t) .unknown) := rfl
theorem Expr_reread_starOf (b) (u1_) :
    Expr.reread (.starOf b u1_ : Expr) =
      ( .starOf b.reread .unknown) := rfl
theorem Expr_reread_aliasedStar (s) (as) :
    Expr.reread (.aliasedStar s as : Expr) =
      ( .aliasedStar s.reread as) := rfl
theorem Expr_reread_var (n) :
    Expr.reread (.var n : Expr) =
      ( .field n none .unknown) := rfl
theorem Expr_reread_lam (ins) (b) :
    Expr.reread (.lam ins b : Expr) =
      ( .lam ins (bind ins b.reread)) := rfl
theorem Expr_reread_un (op) (v) :
    Expr.reread (.un op v : Expr) =
      ( signedOf op v.reread) := rfl
theorem Expr_reread_bin (op) (l) (r) :
    Expr.reread (.bin op l r : Expr) =
      ( .bin op l.reread r.reread) := rfl
theorem Expr_reread_not (v) :
    Expr.reread (.not v : Expr) =
      ( notOf v v.reread) := rfl
theorem Expr_reread_isNull (v) :
    Expr.reread (.isNull v : Expr) =
      ( .isNull v.reread) := rfl
theorem Expr_reread_between (v) (l) (u) :
    Expr.reread (.between v l u : Expr) =
      ( .between v.reread l.reread u.reread) := rfl
theorem Expr_reread_array (vs) :
    Expr.reread (.array vs : Expr) =
      ( .array (Expr.rereads vs)) := rfl
theorem Expr_reread_inQuery (v) (q) :
    Expr.reread (.inQuery v q : Expr) =
      ( .inQuery v.reread q.reread) := rfl
theorem Expr_reread_inList (v) (es) :
    Expr.reread (.inList v es : Expr) =
      ( .inList v.reread (Expr.rereads es)) := rfl
theorem Expr_reread_like (v) (p) (e) :
    Expr.reread (.like v p e : Expr) =
      ( .like v.reread p.reread (Expr.rereadOpt e)) := rfl
theorem Expr_reread_typeCtor (v) (t) :
    Expr.reread (.typeCtor v t : Expr) =
      ( .typeCtor v t) := rfl
theorem Expr_reread_row (vs) :
    Expr.reread (.row vs : Expr) =
      ( .row (Expr.rereads vs)) := rfl
theorem Expr_reread_interval (v) (f) (t) :
    Expr.reread (.interval v f t : Expr) =
      ( .interval v f t) := rfl
theorem Expr_reread_cast (tr) (e) (t) :
    Expr.reread (.cast tr e t : Expr) =
      ( .cast tr e.reread t) := rfl
theorem Expr_reread_subscript (v) (i) :
    Expr.reread (.subscript v i : Expr) =
      ( .subscript v.reread i.reread) := rfl
theorem Expr_reread_case (v) (bs) (e) :
    Expr.reread (.case v bs e : Expr) =
      ( .case (Expr.rereadOpt v) (Expr.rereadWhens bs) (Expr.rereadOpt e)) := rfl
theorem Expr_reread_func (f) (as) :
    Expr.reread (.func f as : Expr) =
      ( .func f (Expr.rereads as)) := rfl
theorem Expr_reread_agg (f) (as) (ob) (fl) (w) (ign) :
    Expr.reread (.agg f as ob fl w ign : Expr) =
      ( .agg f (Expr.rereads as) (Ord.rereads ob) (Expr.rereadOpt fl) (Win.rereadOpt w) ign) := rfl
theorem Expr_reread_listagg (v) (sep) (ov) (ob) :
    Expr.reread (.listagg v sep ov ob : Expr) =
      ( .listagg v.reread sep ov (Ord.rereads ob)) := rfl
theorem Expr_reread_curTime (f) (p) :
    Expr.reread (.curTime f p : Expr) =
      ( .curTime f p) := rfl
theorem Expr_reread_session (f) :
    Expr.reread (.session f : Expr) =
      ( .session f) := rfl
theorem Expr_reread_normalize (v) (fo) :
    Expr.reread (.normalize v fo : Expr) =
      ( .normalize v.reread fo) := rfl
theorem Expr_reread_query (q) :
    Expr.reread (.query q : Expr) =
      ( .query q.reread) := rfl
theorem Expr_rereadOpt_none :
    Expr.rereadOpt (none : Option Expr) =
      ( none) := rfl
theorem Expr_rereadOpt_some (e) :
    Expr.rereadOpt (some e : Option Expr) =
      ( some e.reread) := rfl
theorem Win_rereadOpt_none :
    Win.rereadOpt (none : Option Win) =
      ( none) := rfl
theorem Win_rereadOpt_some (w) :
    Win.rereadOpt (some w : Option Win) =
      ( some w.reread) := rfl
theorem GroupBy_rereadOpt_none :
    GroupBy.rereadOpt (none : Option GroupBy) =
      ( none) := rfl
theorem GroupBy_rereadOpt_some (g) :
    GroupBy.rereadOpt (some g : Option GroupBy) =
      ( some g.reread) := rfl
theorem Rel_rereadOpt_none :
    Rel.rereadOpt (none : Option Rel) =
      ( none) := rfl
theorem Rel_rereadOpt_some (r) :
    Rel.rereadOpt (some r : Option Rel) =
      ( some r.reread) := rfl
theorem Crit_rereadOpt_none :
    Crit.rereadOpt (none : Option Crit) =
      ( none) := rfl
theorem Crit_rereadOpt_some (c) :
    Crit.rereadOpt (some c : Option Crit) =
      ( some c.reread) := rfl
theorem Expr_rereads_nil :
    Expr.rereads ([] : List Expr) =
      ( []) := rfl
theorem Expr_rereads_cons (e) (es) :
    Expr.rereads (e :: es : List Expr) =
      ( e.reread :: Expr.rereads es) := rfl
theorem Expr_rereadWhens_nil :
    Expr.rereadWhens ([] : List (Expr × Expr)) =
      ( []) := rfl
theorem Expr_rereadWhens_cons (c) (v) (bs) :
    Expr.rereadWhens ((c, v) :: bs : List (Expr × Expr)) =
      ( (c.reread, v.reread) :: Expr.rereadWhens bs) := rfl
theorem Expr_rereadLists_nil :
    Expr.rereadLists ([] : List (List Expr)) =
      ( []) := rfl
theorem Expr_rereadLists_cons (vs) (gs) :
    Expr.rereadLists (vs :: gs : List (List Expr)) =
      ( Expr.rereads vs :: Expr.rereadLists gs) := rfl
theorem Ord_reread_mk (v) (d) (nf) :
    Ord.reread (.mk v d nf : Ord) =
      ( .mk v.reread d nf) := rfl
theorem Ord_rereads_nil :
    Ord.rereads ([] : List Ord) =
      ( []) := rfl
theorem Ord_rereads_cons (x) (xs) :
    Ord.rereads (x :: xs : List Ord) =
      ( x.reread :: Ord.rereads xs) := rfl
theorem Bound_reread_bounded (t) (e) :
    Bound.reread (.bounded t e : Bound) =
      ( .bounded t e.reread) := rfl
theorem Bound_reread_unbounded (t) :
    Bound.reread (.unbounded t : Bound) =
      ( .unbounded t) := rfl
theorem Bound_reread_current :
    Bound.reread (.current : Bound) =
      ( .current) := rfl
theorem Win_reread_mk (p) (ob) (ps) (f) (st) (en) :
    Win.reread (.mk p ob ps f st en : Win) =
      ( .mk (truthy p) (Ord.rereads ob) (Expr.rereads ps) f st.reread en.reread) := rfl
theorem Grp_reread_set (vs) :
    Grp.reread (.set vs : Grp) =
      ( .set (Expr.rereads vs)) := rfl
theorem Grp_reread_sets (gs) :
    Grp.reread (.sets gs : Grp) =
      ( .sets (Expr.rereadLists gs)) := rfl
theorem Grp_reread_cube (vs) :
    Grp.reread (.cube vs : Grp) =
      ( .cube (Expr.rereads vs)) := rfl
theorem Grp_reread_rollup (vs) :
    Grp.reread (.rollup vs : Grp) =
      ( .rollup (Expr.rereads vs)) := rfl
theorem Grp_rereads_nil :
    Grp.rereads ([] : List Grp) =
      ( []) := rfl
theorem Grp_rereads_cons (g) (gs) :
    Grp.rereads (g :: gs : List Grp) =
      ( g.reread :: Grp.rereads gs) := rfl
theorem GroupBy_reread_mk (gs) (d) :
    GroupBy.reread (.mk gs d : GroupBy) =
      ( .mk (Grp.rereads gs) d) := rfl
theorem Query_reread_mk (b) (off) (lim) (ob) (w) :
    Query.reread (.mk b off lim ob w : Query) =
      ( .mk b.reread (rowsOf off) (rowsOf lim) (Ord.rereads ob) (Named.rereads w)) := rfl
theorem QBody_reread_select (items) (fr) (wh) (gb) (hv) (d) (wins) :
    QBody.reread (.select items fr wh gb hv d wins : QBody) =
      ( .select (Expr.rereads items) (Rel.rereadOpt fr) (Expr.rereadOpt wh) (GroupBy.rereadOpt gb) (Expr.rereadOpt hv) d (Win.rereadNamed wins)) := rfl
theorem QBody_reread_set (k) (l) (r) (d) :
    QBody.reread (.set k l r d : QBody) =
      ( .set k l.reread r.reread d) := rfl
theorem QBody_reread_table (t) :
    QBody.reread (.table t : QBody) =
      ( .table (forgetTable t)) := rfl
theorem QBody_reread_values (es) :
    QBody.reread (.values es : QBody) =
      ( .values (Expr.rereads es)) := rfl
theorem Win_rereadNamed_nil :
    Win.rereadNamed ([] : List (Str × Win)) =
      ( []) := rfl
theorem Win_rereadNamed_cons (n) (w) (ws) :
    Win.rereadNamed ((n, w) :: ws : List (Str × Win)) =
      ( (n, w.reread) :: Win.rereadNamed ws) := rfl
theorem Named_reread_mk (r) (a) (cols) :
    Named.reread (.mk r a cols : Named) =
      ( .mk r.reread a cols) := rfl
theorem Named_rereads_nil :
    Named.rereads ([] : List Named) =
      ( []) := rfl
theorem Named_rereads_cons (n) (ns) :
    Named.rereads (n :: ns : List Named) =
      ( n.reread :: Named.rereads ns) := rfl
theorem Rel_reread_table (t) :
    Rel.reread (.table t : Rel) =
      ( .table (forgetTable t)) := rfl
theorem Rel_reread_query (q) :
    Rel.reread (.query q : Rel) =
      ( .query q.reread) := rfl
theorem Rel_reread_aliased (n) :
    Rel.reread (.aliased n : Rel) =
      ( .aliased n.reread) := rfl
theorem Rel_reread_join (l) (r) (t) (nat) (cr) :
    Rel.reread (.join l r t nat cr : Rel) =
      ( .join l.reread r.reread t nat (Crit.rereadOpt cr)) := rfl
theorem Rel_reread_unnest (as) (ord) :
    Rel.reread (.unnest as ord : Rel) =
      ( .unnest (Expr.rereads as) ord) := rfl
theorem Rel_reread_lateral (q) :
    Rel.reread (.lateral q : Rel) =
      ( .lateral q.reread) := rfl
theorem Rel_reread_sample (r) (t) (p) :
    Rel.reread (.sample r t p : Rel) =
      ( .sample r.reread t p.reread) := rfl
theorem Crit_reread_using (cols) :
    Crit.reread (.using cols : Crit) =
      ( .using cols) := rfl
theorem Crit_reread_on (e) :
    Crit.reread (.on e : Crit) =
      ( .on e.reread) := rfl

end Treeno
