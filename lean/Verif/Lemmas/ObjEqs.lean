import Verif.Object
/-!
# Equation lemmas of the functions in `Verif/Object.lean`, one per match arm (all by `rfl`)
-/
set_option linter.unusedVariables false
namespace Treeno

theorem Expr_obj_lit (v) (t) :
    Expr.obj (.lit v t : Expr) =
      ( .inst .literal [(c% "data_type", t.obj), (c% "value", .optScalar v)]) := rfl
theorem Expr_obj_field (n) (tn) (t) :
    Expr.obj (.field n tn t : Expr) =
      ( .inst .field [(c% "data_type", t.obj), (c% "name", .str n), (c% "table", .optStr tn)]) := rfl
theorem Expr_obj_fieldOf (n) (b) (t) :
    Expr.obj (.fieldOf n b t : Expr) =
      ( .inst .field [(c% "data_type", t.obj), (c% "name", .str n), (c% "table", b.obj)]) := rfl
theorem Expr_obj_alias (v) (n) :
    Expr.obj (.alias v n : Expr) =
      ( .inst .aliasedValue [typeAttr (Expr.check (.alias v n)), (c% "value", v.obj), (c% "alias", .str n)]) := rfl
theorem Expr_obj_star (tn) (t) :
    Expr.obj (.star tn t : Expr) =
      ( .inst .star [(c% "data_type", t.obj), (c% "table", .optStr tn)]) := rfl
theorem Expr_obj_starOf (b) (t) :
    Expr.obj (.starOf b t : Expr) =
      ( .inst .star [(c% "data_type", t.obj), (c% "table", b.obj)]) := rfl
theorem Expr_obj_aliasedStar (s) (as) :
    Expr.obj (.aliasedStar s as : Expr) =
      ( .inst .aliasedStar [typeAttr (Expr.check (.aliasedStar s as)), (c% "star", s.obj), (c% "aliases", .list (as.map .str))]) := rfl
theorem Expr_obj_var (n) :
    Expr.obj (.var n : Expr) =
      ( varObj n) := rfl
theorem Expr_obj_lam (ins) (b) :
    Expr.obj (.lam ins b : Expr) =
      ( .inst .lambda [typeAttr (Expr.check (.lam ins b)), (c% "inputs", .list (ins.map varObj)), (c% "expr", b.obj)]) := rfl
theorem Expr_obj_un (op) (v) :
    Expr.obj (.un op v : Expr) =
      ( .inst (.un op) [typeAttr (Expr.check (.un op v)), (c% "value", v.obj)]) := rfl
theorem Expr_obj_bin (op) (l) (r) :
    Expr.obj (.bin op l r : Expr) =
      ( .inst (.bin op) [typeAttr (Expr.check (.bin op l r)), (c% "left", l.obj), (c% "right", r.obj)]) := rfl
theorem Expr_obj_not (v) :
    Expr.obj (.not v : Expr) =
      ( .inst .not [typeAttr (Expr.check (.not v)), (c% "value", v.obj)]) := rfl
theorem Expr_obj_isNull (v) :
    Expr.obj (.isNull v : Expr) =
      ( .inst .isNull [typeAttr (Expr.check (.isNull v)), (c% "value", v.obj)]) := rfl
theorem Expr_obj_between (v) (l) (u) :
    Expr.obj (.between v l u : Expr) =
      ( .inst .between [typeAttr (Expr.check (.between v l u)), (c% "value", v.obj), (c% "lower", l.obj), (c% "upper", u.obj)]) := rfl
theorem Expr_obj_array (vs) :
    Expr.obj (.array vs : Expr) =
      ( .inst .array [typeAttr (Expr.check (.array vs)), (c% "values", .list (Expr.objs vs))]) := rfl
theorem Expr_obj_inQuery (v) (q) :
    Expr.obj (.inQuery v q : Expr) =
      ( .inst .inQuery [typeAttr (Expr.check (.inQuery v q)), (c% "value", v.obj), (c% "query", q.obj)]) := rfl
theorem Expr_obj_inList (v) (es) :
    Expr.obj (.inList v es : Expr) =
      ( .inst .inList [typeAttr (Expr.check (.inList v es)), (c% "value", v.obj), (c% "exprs", .list (Expr.objs es))]) := rfl
theorem Expr_obj_like (v) (p) (e) :
    Expr.obj (.like v p e : Expr) =
      ( .inst .like [typeAttr (Expr.check (.like v p e)), (c% "value", v.obj), (c% "pattern", p.obj), (c% "escape", Expr.objOpt e)]) := rfl
theorem Expr_obj_typeCtor (v) (t) :
    Expr.obj (.typeCtor v t : Expr) =
      ( .inst .typeConstructor [typeAttr (Expr.check (.typeCtor v t)), (c% "value", .str v), (c% "type_name", .str t)]) := rfl
theorem Expr_obj_row (vs) :
    Expr.obj (.row vs : Expr) =
      ( .inst .rowConstructor [typeAttr (Expr.check (.row vs)), (c% "values", .list (Expr.objs vs))]) := rfl
theorem Expr_obj_interval (v) (f) (t) :
    Expr.obj (.interval v f t : Expr) =
      ( .inst .interval [typeAttr (Expr.check (.interval v f t)), (c% "value", .str v), (c% "from_interval", .str f), (c% "to_interval", .optStr t)]) := rfl
theorem Expr_obj_cast (tr) (e) (t) :
    Expr.obj (.cast tr e t : Expr) =
      ( .inst (.cast tr) [(c% "data_type", t.obj), (c% "expr", e.obj)]) := rfl
theorem Expr_obj_subscript (v) (i) :
    Expr.obj (.subscript v i : Expr) =
      ( .inst .subscript [typeAttr (Expr.check (.subscript v i)), (c% "value", v.obj), (c% "index", i.obj)]) := rfl
theorem Expr_obj_case (v) (bs) (e) :
    Expr.obj (.case v bs e : Expr) =
      ( .inst .case [typeAttr (Expr.check (.case v bs e)), (c% "branches", .list (Expr.objWhens bs)), (c% "else_", Expr.objElse e), (c% "value", Expr.objOpt v)]) := rfl
theorem Expr_obj_func (f) (as) :
    Expr.obj (.func f as : Expr) =
      ( .inst (.fn f) (typeAttr (Expr.check (.func f as)) :: fnAttrs f (Expr.objs as))) := rfl
theorem Expr_obj_agg (f) (as) (ob) (fl) (w) (ign) :
    Expr.obj (.agg f as ob fl w ign : Expr) =
      ( .inst (.agg f) (typeAttr (Expr.check (.agg f as ob fl w ign)) :: (c% "orderby", .optList (Ord.objs ob)) ::
      (c% "filter_", Expr.objOpt fl) :: (c% "window", Win.objOpt w) ::
      (c% "null_treatment", .enum2 (c% "NullTreatment") (c% "IGNORE") (c% "RESPECT") ign) :: argAttrs f.attrNames (Expr.objs as))) := rfl
theorem Expr_obj_listagg (v) (sep) (ov) (ob) :
    Expr.obj (.listagg v sep ov ob : Expr) =
      ( .inst .listAgg [typeAttr (Expr.check (.listagg v sep ov ob)), (c% "orderby", .optList (Ord.objs ob)), (c% "filter_", .none), (c% "window", .none), (c% "null_treatment", .enum2 (c% "NullTreatment") (c% "IGNORE") (c% "RESPECT") false), (c% "value", v.obj), (c% "separator", .str sep), (c% "overflow_filler", fillerObj ov)]) := rfl
theorem Expr_obj_curTime (f) (p) :
    Expr.obj (.curTime f p : Expr) =
      ( .inst (.curTime f) [typeAttr (Expr.check (.curTime f p)), (c% "precision", .int p)]) := rfl
theorem Expr_obj_session (f) :
    Expr.obj (.session f : Expr) =
      ( .inst (.session f) [typeAttr (Expr.check (.session f))]) := rfl
theorem Expr_obj_normalize (v) (fo) :
    Expr.obj (.normalize v fo : Expr) =
      ( .inst .normalize [typeAttr (Expr.check (.normalize v fo)), (c% "string", v.obj), (c% "normal_form", .optForm fo)]) := rfl
theorem Expr_obj_query (q) :
    Expr.obj (.query q : Expr) =
      ( q.obj) := rfl
theorem Expr_objOpt_none :
    Expr.objOpt (none : Option Expr) =
      ( .none) := rfl
theorem Expr_objOpt_some (e) :
    Expr.objOpt (some e : Option Expr) =
      ( e.obj) := rfl
theorem Expr_objs_nil :
    Expr.objs ([] : List Expr) =
      ( []) := rfl
theorem Expr_objs_cons (e) (r) :
    Expr.objs (e :: r : List Expr) =
      ( e.obj :: Expr.objs r) := rfl
theorem Expr_objSets_nil :
    Expr.objSets ([] : List (List Expr)) =
      ( []) := rfl
theorem Expr_objSets_cons (g) (r) :
    Expr.objSets (g :: r : List (List Expr)) =
      ( .inst .groupingSet [(c% "values", .list (Expr.objs g))] :: Expr.objSets r) := rfl
theorem Expr_objWhens_nil :
    Expr.objWhens ([] : List (Expr × Expr)) =
      ( []) := rfl
theorem Expr_objWhens_cons (c) (v) (r) :
    Expr.objWhens ((c, v) :: r : List (Expr × Expr)) =
      ( .inst .when [(c% "condition", c.obj), (c% "value", v.obj)] :: Expr.objWhens r) := rfl
theorem Expr_objElse_none :
    Expr.objElse (none : Option Expr) =
      ( .none) := rfl
theorem Expr_objElse_some (e) :
    Expr.objElse (some e : Option Expr) =
      ( .inst .else_ [(c% "value", e.obj)]) := rfl
theorem Ord_obj_mk (v) (d) (nf) :
    Ord.obj (.mk v d nf : Ord) =
      ( .inst .orderTerm [(c% "value", v.obj), (c% "order_type", .enum2 (c% "OrderType") (c% "DESC") (c% "ASC") d),
      (c% "null_order", .enum2 (c% "NullOrder") (c% "FIRST") (c% "LAST") nf)]) := rfl
theorem Ord_objs_nil :
    Ord.objs ([] : List Ord) =
      ( []) := rfl
theorem Ord_objs_cons (x) (r) :
    Ord.objs (x :: r : List Ord) =
      ( x.obj :: Ord.objs r) := rfl
theorem Bound_obj_bounded (t) (e) :
    Bound.obj (.bounded t e : Bound) =
      ( .inst .boundedFrameBound [(c% "bound_type", t.obj), (c% "offset", e.obj)]) := rfl
theorem Bound_obj_unbounded (t) :
    Bound.obj (.unbounded t : Bound) =
      ( .inst .unboundedFrameBound [(c% "bound_type", t.obj)]) := rfl
theorem Bound_obj_current :
    Bound.obj (.current : Bound) =
      ( .inst .currentFrameBound []) := rfl
theorem Win_obj_mk (p) (ob) (ps) (f) (st) (en) :
    Win.obj (.mk p ob ps f st en : Win) =
      ( .inst .window [(c% "parent_window", .optStr p), (c% "orderby", .optList (Ord.objs ob)),
      (c% "partitions", .optList (Expr.objs ps)), (c% "frame_type", f.obj), (c% "start_bound", st.obj), (c% "end_bound", en.obj)]) := rfl
theorem Win_objOpt_none :
    Win.objOpt (none : Option Win) =
      ( .none) := rfl
theorem Win_objOpt_some (w) :
    Win.objOpt (some w : Option Win) =
      ( w.obj) := rfl
theorem Win_objNamed_nil :
    Win.objNamed ([] : List (Str × Win)) =
      ( []) := rfl
theorem Win_objNamed_cons (n) (w) (r) :
    Win.objNamed ((n, w) :: r : List (Str × Win)) =
      ( (n, w.obj) :: Win.objNamed r) := rfl
theorem Grp_obj_set (vs) :
    Grp.obj (.set vs : Grp) =
      ( .inst .groupingSet [(c% "values", .list (Expr.objs vs))]) := rfl
theorem Grp_obj_sets (gs) :
    Grp.obj (.sets gs : Grp) =
      ( .inst .groupingSetList [(c% "groups", .list (Expr.objSets gs))]) := rfl
theorem Grp_obj_cube (vs) :
    Grp.obj (.cube vs : Grp) =
      ( .inst .cube [(c% "values", .list (Expr.objs vs))]) := rfl
theorem Grp_obj_rollup (vs) :
    Grp.obj (.rollup vs : Grp) =
      ( .inst .rollup [(c% "values", .list (Expr.objs vs))]) := rfl
theorem Grp_objs_nil :
    Grp.objs ([] : List Grp) =
      ( []) := rfl
theorem Grp_objs_cons (g) (r) :
    Grp.objs (g :: r : List Grp) =
      ( g.obj :: Grp.objs r) := rfl
theorem GroupBy_obj_mk (gs) (d) :
    GroupBy.obj (.mk gs d : GroupBy) =
      ( .inst .groupBy [(c% "groups", .list (Grp.objs gs)), (c% "groupby_quantifier", quantifier d)]) := rfl
theorem GroupBy_objOpt_none :
    GroupBy.objOpt (none : Option GroupBy) =
      ( .none) := rfl
theorem GroupBy_objOpt_some (g) :
    GroupBy.objOpt (some g : Option GroupBy) =
      ( g.obj) := rfl
theorem Query_obj_mk (b) (off) (lim) (ob) (w) :
    Query.obj (.mk b off lim ob w : Query) =
      ( .inst (QBody.cls b) (typeAttr (Query.check (.mk b off lim ob w)) :: (c% "offset", .optInt off) :: (c% "limit", .optInt lim) ::
      (c% "orderby", .optList (Ord.objs ob)) :: (c% "with_", withObj (Named.objs w)) :: QBody.attrs b)) := rfl
theorem QBody_cls_select (u1_) (u2_) (u3_) (u4_) (u5_) (u6_) (u7_) :
    QBody.cls (.select u1_ u2_ u3_ u4_ u5_ u6_ u7_ : QBody) =
      ( .selectQuery) := rfl
theorem QBody_cls_set (k) (u1_) (u2_) (u3_) :
    QBody.cls (.set k u1_ u2_ u3_ : QBody) =
      ( .setQuery k) := rfl
theorem QBody_cls_table (u1_) :
    QBody.cls (.table u1_ : QBody) =
      ( .tableQuery) := rfl
theorem QBody_cls_values (u1_) :
    QBody.cls (.values u1_ : QBody) =
      ( .valuesQuery) := rfl
theorem QBody_attrs_select (items) (fr) (wh) (gb) (hv) (d) (wins) :
    QBody.attrs (.select items fr wh gb hv d wins : QBody) =
      ( [(c% "select", .list (Expr.objs items)), (c% "from_", Rel.objOpt fr), (c% "where", Expr.objOpt wh),
      (c% "groupby", GroupBy.objOpt gb), (c% "having", Expr.objOpt hv), (c% "select_quantifier", quantifier d),
      (c% "window", windowObj (Win.objNamed wins))]) := rfl
theorem QBody_attrs_set (u1_) (l) (r) (d) :
    QBody.attrs (.set u1_ l r d : QBody) =
      ( [(c% "left_query", l.obj), (c% "right_query", r.obj), (c% "set_quantifier", quantifier d)]) := rfl
theorem QBody_attrs_table (t) :
    QBody.attrs (.table t : QBody) =
      ( [(c% "table", t.obj)]) := rfl
theorem QBody_attrs_values (es) :
    QBody.attrs (.values es : QBody) =
      ( [(c% "exprs", .list (Expr.objs es))]) := rfl
theorem Named_obj_mk (r) (a) (cols) :
    Named.obj (.mk r a cols : Named) =
      ( .inst .aliasedRelation [(c% "relation", r.obj), (c% "alias", .str a), (c% "column_aliases", .names cols)]) := rfl
theorem Named_objs_nil :
    Named.objs ([] : List Named) =
      ( []) := rfl
theorem Named_objs_cons (n) (r) :
    Named.objs (n :: r : List Named) =
      ( n.obj :: Named.objs r) := rfl
theorem Rel_obj_table (t) :
    Rel.obj (.table t : Rel) =
      ( t.obj) := rfl
theorem Rel_obj_query (q) :
    Rel.obj (.query q : Rel) =
      ( q.obj) := rfl
theorem Rel_obj_aliased (n) :
    Rel.obj (.aliased n : Rel) =
      ( n.obj) := rfl
theorem Rel_obj_join (l) (r) (t) (nat) (cr) :
    Rel.obj (.join l r t nat cr : Rel) =
      ( .inst .join [(c% "left_relation", l.obj), (c% "right_relation", r.obj),
      (c% "config", .inst .joinConfig [(c% "join_type", t.obj), (c% "natural", .bool nat), (c% "criteria", Crit.objOpt cr)])]) := rfl
theorem Rel_obj_unnest (as) (ord) :
    Rel.obj (.unnest as ord : Rel) =
      ( .inst .unnest [(c% "arrays", .list (Expr.objs as)), (c% "with_ordinality", .bool ord)]) := rfl
theorem Rel_obj_lateral (q) :
    Rel.obj (.lateral q : Rel) =
      ( .inst .lateral [(c% "subquery", q.obj)]) := rfl
theorem Rel_obj_sample (r) (t) (p) :
    Rel.obj (.sample r t p : Rel) =
      ( .inst .tableSample [(c% "relation", r.obj), (c% "sample_type", t.obj), (c% "percentage", p.obj)]) := rfl
theorem Rel_objOpt_none :
    Rel.objOpt (none : Option Rel) =
      ( .none) := rfl
theorem Rel_objOpt_some (r) :
    Rel.objOpt (some r : Option Rel) =
      ( r.obj) := rfl
theorem Crit_obj_using (cols) :
    Crit.obj (.using cols : Crit) =
      ( .inst .joinUsingCriteria [(c% "column_names", .list (cols.map .str))]) := rfl
theorem Crit_obj_on (e) :
    Crit.obj (.on e : Crit) =
      ( .inst .joinOnCriteria [(c% "constraint", e.obj)]) := rfl
theorem Crit_objOpt_none :
    Crit.objOpt (none : Option Crit) =
      ( .none) := rfl
theorem Crit_objOpt_some (c) :
    Crit.objOpt (some c : Option Crit) =
      ( c.obj) := rfl

end Treeno
