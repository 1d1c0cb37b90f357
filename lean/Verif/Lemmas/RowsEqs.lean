import Verif.Spec.Rows
/-!
# Equation lemmas of the functions in `Verif/Spec/Rows.lean`, one per match arm (all by `rfl`)
-/
set_option linter.unusedVariables false
namespace Treeno

theorem Expr_Rows_lit (u1_) (u2_) :
    Expr.Rows (.lit u1_ u2_ : Expr) =
      ( True) := rfl
theorem Expr_Rows_field (u1_) (u2_) (u3_) :
    Expr.Rows (.field u1_ u2_ u3_ : Expr) =
      ( True) := rfl
theorem Expr_Rows_fieldOf (u1_) (b) (u2_) :
    Expr.Rows (.fieldOf u1_ b u2_ : Expr) =
      ( b.Rows) := rfl
theorem Expr_Rows_alias (v) (u1_) :
    Expr.Rows (.alias v u1_ : Expr) =
      ( v.Rows) := rfl
theorem Expr_Rows_star (u1_) (u2_) :
    Expr.Rows (.star u1_ u2_ : Expr) =
      ( True) := rfl
theorem Expr_Rows_starOf (b) (u1_) :
    Expr.Rows (.starOf b u1_ : Expr) =
      ( b.Rows) := rfl
theorem Expr_Rows_aliasedStar (s) (u1_) :
    Expr.Rows (.aliasedStar s u1_ : Expr) =
      ( s.Rows) := rfl
theorem Expr_Rows_var (u1_) :
    Expr.Rows (.var u1_ : Expr) =
      ( True) := rfl
theorem Expr_Rows_lam (u1_) (b) :
    Expr.Rows (.lam u1_ b : Expr) =
      ( b.Rows) := rfl
theorem Expr_Rows_un (u1_) (v) :
    Expr.Rows (.un u1_ v : Expr) =
      ( v.Rows) := rfl
theorem Expr_Rows_bin (u1_) (l) (r) :
    Expr.Rows (.bin u1_ l r : Expr) =
      ( l.Rows ∧ r.Rows) := rfl
theorem Expr_Rows_not (v) :
    Expr.Rows (.not v : Expr) =
      ( v.Rows) := rfl
theorem Expr_Rows_isNull (v) :
    Expr.Rows (.isNull v : Expr) =
      ( v.Rows) := rfl
theorem Expr_Rows_between (v) (l) (u) :
    Expr.Rows (.between v l u : Expr) =
      ( v.Rows ∧ l.Rows ∧ u.Rows) := rfl
theorem Expr_Rows_array (vs) :
    Expr.Rows (.array vs : Expr) =
      ( Expr.Rowss vs) := rfl
theorem Expr_Rows_inQuery (v) (q) :
    Expr.Rows (.inQuery v q : Expr) =
      ( v.Rows ∧ q.Rows) := rfl
theorem Expr_Rows_inList (v) (es) :
    Expr.Rows (.inList v es : Expr) =
      ( v.Rows ∧ Expr.Rowss es) := rfl
theorem Expr_Rows_like (v) (p) (e) :
    Expr.Rows (.like v p e : Expr) =
      ( v.Rows ∧ p.Rows ∧ Expr.RowsOpt e) := rfl
theorem Expr_Rows_typeCtor (u1_) (u2_) :
    Expr.Rows (.typeCtor u1_ u2_ : Expr) =
      ( True) := rfl
theorem Expr_Rows_row (vs) :
    Expr.Rows (.row vs : Expr) =
      ( Expr.Rowss vs) := rfl
theorem Expr_Rows_interval (u1_) (u2_) (u3_) :
    Expr.Rows (.interval u1_ u2_ u3_ : Expr) =
      ( True) := rfl
theorem Expr_Rows_cast (u1_) (e) (u2_) :
    Expr.Rows (.cast u1_ e u2_ : Expr) =
      ( e.Rows) := rfl
theorem Expr_Rows_subscript (v) (i) :
    Expr.Rows (.subscript v i : Expr) =
      ( v.Rows ∧ i.Rows) := rfl
theorem Expr_Rows_case (v) (bs) (e) :
    Expr.Rows (.case v bs e : Expr) =
      ( Expr.RowsOpt v ∧ Expr.RowsWhens bs ∧ Expr.RowsOpt e) := rfl
theorem Expr_Rows_func (u1_) (as) :
    Expr.Rows (.func u1_ as : Expr) =
      ( Expr.Rowss as) := rfl
theorem Expr_Rows_agg (u1_) (as) (ob) (fl) (w) (u2_) :
    Expr.Rows (.agg u1_ as ob fl w u2_ : Expr) =
      ( Expr.Rowss as ∧ Ord.Rowss ob ∧ Expr.RowsOpt fl ∧ Win.RowsOpt w) := rfl
theorem Expr_Rows_listagg (v) (u1_) (u2_) (ob) :
    Expr.Rows (.listagg v u1_ u2_ ob : Expr) =
      ( v.Rows ∧ Ord.Rowss ob) := rfl
theorem Expr_Rows_curTime (u1_) (u2_) :
    Expr.Rows (.curTime u1_ u2_ : Expr) =
      ( True) := rfl
theorem Expr_Rows_session (u1_) :
    Expr.Rows (.session u1_ : Expr) =
      ( True) := rfl
theorem Expr_Rows_normalize (v) (u1_) :
    Expr.Rows (.normalize v u1_ : Expr) =
      ( v.Rows) := rfl
theorem Expr_Rows_query (q) :
    Expr.Rows (.query q : Expr) =
      ( q.Rows) := rfl
theorem Expr_RowsOpt_none :
    Expr.RowsOpt (none : Option Expr) =
      ( True) := rfl
theorem Expr_RowsOpt_some (e) :
    Expr.RowsOpt (some e : Option Expr) =
      ( e.Rows) := rfl
theorem Win_RowsOpt_none :
    Win.RowsOpt (none : Option Win) =
      ( True) := rfl
theorem Win_RowsOpt_some (w) :
    Win.RowsOpt (some w : Option Win) =
      ( w.Rows) := rfl
theorem GroupBy_RowsOpt_none :
    GroupBy.RowsOpt (none : Option GroupBy) =
      ( True) := rfl
theorem GroupBy_RowsOpt_some (g) :
    GroupBy.RowsOpt (some g : Option GroupBy) =
      ( g.Rows) := rfl
theorem Rel_RowsOpt_none :
    Rel.RowsOpt (none : Option Rel) =
      ( True) := rfl
theorem Rel_RowsOpt_some (r) :
    Rel.RowsOpt (some r : Option Rel) =
      ( r.Rows) := rfl
theorem Crit_RowsOpt_none :
    Crit.RowsOpt (none : Option Crit) =
      ( True) := rfl
theorem Crit_RowsOpt_some (c) :
    Crit.RowsOpt (some c : Option Crit) =
      ( c.Rows) := rfl
theorem Expr_Rowss_nil :
    Expr.Rowss ([] : List Expr) =
      ( True) := rfl
theorem Expr_Rowss_cons (e) (es) :
    Expr.Rowss (e :: es : List Expr) =
      ( e.Rows ∧ Expr.Rowss es) := rfl
theorem Expr_RowsWhens_nil :
    Expr.RowsWhens ([] : List (Expr × Expr)) =
      ( True) := rfl
theorem Expr_RowsWhens_cons (c) (v) (bs) :
    Expr.RowsWhens ((c, v) :: bs : List (Expr × Expr)) =
      ( c.Rows ∧ v.Rows ∧ Expr.RowsWhens bs) := rfl
theorem Expr_RowsLists_nil :
    Expr.RowsLists ([] : List (List Expr)) =
      ( True) := rfl
theorem Expr_RowsLists_cons (vs) (gs) :
    Expr.RowsLists (vs :: gs : List (List Expr)) =
      ( Expr.Rowss vs ∧ Expr.RowsLists gs) := rfl
theorem Ord_Rows_mk (v) (u1_) (u2_) :
    Ord.Rows (.mk v u1_ u2_ : Ord) =
      ( v.Rows) := rfl
theorem Ord_Rowss_nil :
    Ord.Rowss ([] : List Ord) =
      ( True) := rfl
theorem Ord_Rowss_cons (x) (xs) :
    Ord.Rowss (x :: xs : List Ord) =
      ( x.Rows ∧ Ord.Rowss xs) := rfl
theorem Bound_Rows_bounded (u1_) (e) :
    Bound.Rows (.bounded u1_ e : Bound) =
      ( e.Rows) := rfl
theorem Bound_Rows_unbounded (u1_) :
    Bound.Rows (.unbounded u1_ : Bound) =
      ( True) := rfl
theorem Bound_Rows_current :
    Bound.Rows (.current : Bound) =
      ( True) := rfl
theorem Win_Rows_mk (u1_) (ob) (ps) (u2_) (st) (en) :
    Win.Rows (.mk u1_ ob ps u2_ st en : Win) =
      ( Ord.Rowss ob ∧ Expr.Rowss ps ∧ st.Rows ∧ en.Rows) := rfl
theorem Grp_Rows_set (vs) :
    Grp.Rows (.set vs : Grp) =
      ( Expr.Rowss vs) := rfl
theorem Grp_Rows_sets (gs) :
    Grp.Rows (.sets gs : Grp) =
      ( Expr.RowsLists gs) := rfl
theorem Grp_Rows_cube (vs) :
    Grp.Rows (.cube vs : Grp) =
      ( Expr.Rowss vs) := rfl
theorem Grp_Rows_rollup (vs) :
    Grp.Rows (.rollup vs : Grp) =
      ( Expr.Rowss vs) := rfl
theorem Grp_Rowss_nil :
    Grp.Rowss ([] : List Grp) =
      ( True) := rfl
theorem Grp_Rowss_cons (g) (gs) :
    Grp.Rowss (g :: gs : List Grp) =
      ( g.Rows ∧ Grp.Rowss gs) := rfl
theorem GroupBy_Rows_mk (gs) (u1_) :
    GroupBy.Rows (.mk gs u1_ : GroupBy) =
      ( Grp.Rowss gs) := rfl
theorem Query_Rows_mk (b) (u1_) (lim) (ob) (w) :
    Query.Rows (.mk b u1_ lim ob w : Query) =
      ( lim ≠ some 0 ∧ Named.RowsWiths w ∧ Ord.Rowss ob ∧ b.Rows) := rfl
theorem QBody_Rows_select (items) (fr) (wh) (gb) (hv) (u1_) (wins) :
    QBody.Rows (.select items fr wh gb hv u1_ wins : QBody) =
      ( Expr.Rowss items ∧ Rel.RowsOpt fr ∧ Expr.RowsOpt wh ∧ GroupBy.RowsOpt gb ∧ Expr.RowsOpt hv ∧ Win.RowsNamed wins) := rfl
theorem QBody_Rows_set (u1_) (l) (r) (u2_) :
    QBody.Rows (.set u1_ l r u2_ : QBody) =
      ( l.Rows ∧ r.Rows) := rfl
theorem QBody_Rows_table (u1_) :
    QBody.Rows (.table u1_ : QBody) =
      ( True) := rfl
theorem QBody_Rows_values (es) :
    QBody.Rows (.values es : QBody) =
      ( Expr.Rowss es) := rfl
theorem Win_RowsNamed_nil :
    Win.RowsNamed ([] : List (Str × Win)) =
      ( True) := rfl
theorem Win_RowsNamed_cons (u1_) (w) (ws) :
    Win.RowsNamed ((u1_, w) :: ws : List (Str × Win)) =
      ( w.Rows ∧ Win.RowsNamed ws) := rfl
theorem Named_Rows_mk (r) (u1_) (u2_) :
    Named.Rows (.mk r u1_ u2_ : Named) =
      ( r.Rows) := rfl
theorem Named_RowsWith_mk (r) (u1_) (u2_) :
    Named.RowsWith (.mk r u1_ u2_ : Named) =
      ( r.Rows) := rfl
theorem Named_RowsWiths_nil :
    Named.RowsWiths ([] : List Named) =
      ( True) := rfl
theorem Named_RowsWiths_cons (n) (ns) :
    Named.RowsWiths (n :: ns : List Named) =
      ( n.RowsWith ∧ Named.RowsWiths ns) := rfl
theorem Rel_Rows_table (u1_) :
    Rel.Rows (.table u1_ : Rel) =
      ( True) := rfl
theorem Rel_Rows_query (q) :
    Rel.Rows (.query q : Rel) =
      ( q.Rows) := rfl
theorem Rel_Rows_aliased (n) :
    Rel.Rows (.aliased n : Rel) =
      ( n.Rows) := rfl
theorem Rel_Rows_join (l) (r) (u1_) (u2_) (cr) :
    Rel.Rows (.join l r u1_ u2_ cr : Rel) =
      ( l.Rows ∧ r.Rows ∧ Crit.RowsOpt cr) := rfl
theorem Rel_Rows_unnest (as) (u1_) :
    Rel.Rows (.unnest as u1_ : Rel) =
      ( Expr.Rowss as) := rfl
theorem Rel_Rows_lateral (q) :
    Rel.Rows (.lateral q : Rel) =
      ( q.Rows) := rfl
theorem Rel_Rows_sample (r) (u1_) (p) :
    Rel.Rows (.sample r u1_ p : Rel) =
      ( r.Rows ∧ p.Rows) := rfl
theorem Crit_Rows_using (u1_) :
    Crit.Rows (.using u1_ : Crit) =
      ( True) := rfl
theorem Crit_Rows_on (e) :
    Crit.Rows (.on e : Crit) =
      ( e.Rows) := rfl

end Treeno
