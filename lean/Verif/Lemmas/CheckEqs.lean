import Verif.Typing
/-!
# Equation lemmas of the functions in `Verif/Typing.lean`, one per match arm (all by `rfl`)
-/
set_option linter.unusedVariables false
namespace Treeno

theorem Expr_check_lit (v) (t) :
    Expr.check (.lit v t : Expr) =
      ( if v.isSome = true ∧ t = .unknown then .error .assertion else .ok t) := rfl
theorem Expr_check_field (u1_) (u2_) (t) :
    Expr.check (.field u1_ u2_ t : Expr) =
      ( .ok t) := rfl
theorem Expr_check_fieldOf (u1_) (b) (t) :
    Expr.check (.fieldOf u1_ b t : Expr) =
      ( do
    let _ ← b.check
    if b.isField then .error .assertion else .ok t) := rfl
theorem Expr_check_alias (v) (u1_) :
    Expr.check (.alias v u1_ : Expr) =
      ( do
    let t ← v.check
    if v.isStar then .error .assertion else .ok t) := rfl
theorem Expr_check_star (u1_) (t) :
    Expr.check (.star u1_ t : Expr) =
      ( .ok t) := rfl
theorem Expr_check_starOf (b) (t) :
    Expr.check (.starOf b t : Expr) =
      ( do
    let _ ← b.check
    if b.isField then .error .assertion else .ok t) := rfl
theorem Expr_check_aliasedStar (s) (u1_) :
    Expr.check (.aliasedStar s u1_ : Expr) =
      ( s.check) := rfl
theorem Expr_check_var (u1_) :
    Expr.check (.var u1_ : Expr) =
      ( .ok .unknown) := rfl
theorem Expr_check_lam (ins) (b) :
    Expr.check (.lam ins b : Expr) =
      ( do
    let _ ← b.check
    if ins.Nodup then .ok .unknown else .error .assertion) := rfl
theorem Expr_check_un (u1_) (v) :
    Expr.check (.un u1_ v : Expr) =
      ( v.check) := rfl
theorem Expr_check_bin (op) (l) (r) :
    Expr.check (.bin op l r : Expr) =
      ( do
    let a ← l.check
    let b ← r.check
    binType op a b) := rfl
theorem Expr_check_not (v) :
    Expr.check (.not v : Expr) =
      ( do
    let _ ← v.check
    .ok .boolean) := rfl
theorem Expr_check_isNull (v) :
    Expr.check (.isNull v : Expr) =
      ( do
    let _ ← v.check
    .ok .boolean) := rfl
theorem Expr_check_between (v) (l) (u) :
    Expr.check (.between v l u : Expr) =
      ( do
    let _ ← v.check
    let _ ← l.check
    let _ ← u.check
    .ok .boolean) := rfl
theorem Expr_check_array (vs) :
    Expr.check (.array vs : Expr) =
      ( do
    let ts ← Expr.checks vs
    arrayType ts) := rfl
theorem Expr_check_inQuery (v) (q) :
    Expr.check (.inQuery v q : Expr) =
      ( do
    let _ ← v.check
    let _ ← q.check
    .ok .boolean) := rfl
theorem Expr_check_inList (v) (es) :
    Expr.check (.inList v es : Expr) =
      ( do
    let _ ← v.check
    let _ ← Expr.checks es
    .ok .boolean) := rfl
theorem Expr_check_like (v) (p) (e) :
    Expr.check (.like v p e : Expr) =
      ( do
    let _ ← v.check
    let _ ← p.check
    Expr.checkOpt e
    .ok .boolean) := rfl
theorem Expr_check_typeCtor (v) (t) :
    Expr.check (.typeCtor v t : Expr) =
      ( typeCtorType v t) := rfl
theorem Expr_check_row (vs) :
    Expr.check (.row vs : Expr) =
      ( do .ok (.row (← Expr.checks vs))) := rfl
theorem Expr_check_interval (u1_) (f) (u2_) :
    Expr.check (.interval u1_ f u2_ : Expr) =
      ( intervalType f) := rfl
theorem Expr_check_cast (u1_) (e) (t) :
    Expr.check (.cast u1_ e t : Expr) =
      ( do
    let _ ← e.check
    if t = .unknown then .error .assertion else .ok t) := rfl
theorem Expr_check_subscript (v) (i) :
    Expr.check (.subscript v i : Expr) =
      ( do
    let _ ← v.check
    let _ ← i.check
    .ok .unknown) := rfl
theorem Expr_check_case (v) (bs) (e) :
    Expr.check (.case v bs e : Expr) =
      ( do
    Expr.checkOpt v
    let ts ← Expr.checkWhens bs
    Expr.checkOpt e
    firstType ts) := rfl
theorem Expr_check_func (f) (as) :
    Expr.check (.func f as : Expr) =
      ( do
    let ts ← Expr.checks as
    fnType f ts) := rfl
theorem Expr_check_agg (f) (as) (ob) (fl) (w) (ign) :
    Expr.check (.agg f as ob fl w ign : Expr) =
      ( do
    let ts ← Expr.checks as
    Ord.checks ob
    Expr.checkOpt fl
    Win.checkOpt w
    if countStarBad f as ob ign then .error .assertion else aggType f ts) := rfl
theorem Expr_check_listagg (v) (u1_) (u2_) (ob) :
    Expr.check (.listagg v u1_ u2_ ob : Expr) =
      ( do
    let _ ← v.check
    Ord.checks ob
    if ob.isEmpty then .error .assertion else .ok (.varchar none)) := rfl
theorem Expr_check_curTime (f) (p) :
    Expr.check (.curTime f p : Expr) =
      ( curTimeType f p) := rfl
theorem Expr_check_session (f) :
    Expr.check (.session f : Expr) =
      ( .ok f.type) := rfl
theorem Expr_check_normalize (v) (u1_) :
    Expr.check (.normalize v u1_ : Expr) =
      ( do
    let _ ← v.check
    .ok (.varchar none)) := rfl
theorem Expr_check_query (q) :
    Expr.check (.query q : Expr) =
      ( q.check) := rfl
theorem Expr_checkOpt_none :
    Expr.checkOpt (none : Option Expr) =
      ( .ok ()) := rfl
theorem Expr_checkOpt_some (e) :
    Expr.checkOpt (some e : Option Expr) =
      ( do
    let _ ← e.check
    .ok ()) := rfl
theorem Win_checkOpt_none :
    Win.checkOpt (none : Option Win) =
      ( .ok ()) := rfl
theorem Win_checkOpt_some (w) :
    Win.checkOpt (some w : Option Win) =
      ( w.check) := rfl
theorem Rel_checkOpt_none :
    Rel.checkOpt (none : Option Rel) =
      ( .ok ()) := rfl
theorem Rel_checkOpt_some (r) :
    Rel.checkOpt (some r : Option Rel) =
      ( r.check) := rfl
theorem GroupBy_checkOpt_none :
    GroupBy.checkOpt (none : Option GroupBy) =
      ( .ok ()) := rfl
theorem GroupBy_checkOpt_some (g) :
    GroupBy.checkOpt (some g : Option GroupBy) =
      ( g.check) := rfl
theorem Crit_checkOpt_none :
    Crit.checkOpt (none : Option Crit) =
      ( .ok ()) := rfl
theorem Crit_checkOpt_some (c) :
    Crit.checkOpt (some c : Option Crit) =
      ( c.check) := rfl
theorem Expr_checks_nil :
    Expr.checks ([] : List Expr) =
      ( .ok []) := rfl
theorem Expr_checks_cons (e) (es) :
    Expr.checks (e :: es : List Expr) =
      ( do
    let t ← e.check
    let ts ← Expr.checks es
    .ok (t :: ts)) := rfl
theorem Expr_checkWhens_nil :
    Expr.checkWhens ([] : List (Expr × Expr)) =
      ( .ok []) := rfl
theorem Expr_checkWhens_cons (c) (v) (bs) :
    Expr.checkWhens ((c, v) :: bs : List (Expr × Expr)) =
      ( do
    let _ ← c.check
    let t ← v.check
    let ts ← Expr.checkWhens bs
    .ok (t :: ts)) := rfl
theorem Ord_checks_nil :
    Ord.checks ([] : List Ord) =
      ( .ok ()) := rfl
theorem Ord_checks_cons (v) (u1_) (u2_) (os) :
    Ord.checks (.mk v u1_ u2_ :: os : List Ord) =
      ( do
    let _ ← v.check
    Ord.checks os) := rfl
theorem Bound_check_bounded (u1_) (e) :
    Bound.check (.bounded u1_ e : Bound) =
      ( do
    let _ ← e.check
    .ok ()) := rfl
theorem Bound_check_unbounded (u1_) :
    Bound.check (.unbounded u1_ : Bound) =
      ( .ok ()) := rfl
theorem Bound_check_current :
    Bound.check (.current : Bound) =
      ( .ok ()) := rfl
theorem Win_check_mk (u1_) (ob) (ps) (u2_) (st) (en) :
    Win.check (.mk u1_ ob ps u2_ st en : Win) =
      ( do
    Ord.checks ob
    let _ ← Expr.checks ps
    st.check
    en.check) := rfl
theorem Expr_checkLists_nil :
    Expr.checkLists ([] : List (List Expr)) =
      ( .ok ()) := rfl
theorem Expr_checkLists_cons (vs) (gs) :
    Expr.checkLists (vs :: gs : List (List Expr)) =
      ( do
    let _ ← Expr.checks vs
    Expr.checkLists gs) := rfl
theorem Grp_check_set (vs) :
    Grp.check (.set vs : Grp) =
      ( do
    let _ ← Expr.checks vs
    .ok ()) := rfl
theorem Grp_check_sets (gs) :
    Grp.check (.sets gs : Grp) =
      ( do
    Expr.checkLists gs
    if gs.isEmpty then .error .assertion else .ok ()) := rfl
theorem Grp_check_cube (vs) :
    Grp.check (.cube vs : Grp) =
      ( do
    let _ ← Expr.checks vs
    if vs.isEmpty then .error .assertion else .ok ()) := rfl
theorem Grp_check_rollup (vs) :
    Grp.check (.rollup vs : Grp) =
      ( do
    let _ ← Expr.checks vs
    if vs.isEmpty then .error .assertion else .ok ()) := rfl
theorem Grp_checks_nil :
    Grp.checks ([] : List Grp) =
      ( .ok ()) := rfl
theorem Grp_checks_cons (g) (gs) :
    Grp.checks (g :: gs : List Grp) =
      ( do
    g.check
    Grp.checks gs) := rfl
theorem GroupBy_check_mk (gs) (u1_) :
    GroupBy.check (.mk gs u1_ : GroupBy) =
      ( Grp.checks gs) := rfl
theorem Query_check_mk (body) (u1_) (u2_) (ob) (w) :
    Query.check (.mk body u1_ u2_ ob w : Query) =
      ( do
    Named.checks w
    Ord.checks ob
    body.check) := rfl
theorem QBody_check_select (items) (fr) (wh) (gb) (hv) (u1_) (wins) :
    QBody.check (.select items fr wh gb hv u1_ wins : QBody) =
      ( do
    let ts ← Expr.checks items
    Rel.checkOpt fr
    Expr.checkOpt wh
    GroupBy.checkOpt gb
    Expr.checkOpt hv
    Win.checkNamed wins
    if items.isEmpty then .error .assertion else .ok (selectType ts)) := rfl
theorem QBody_check_set (k) (l) (r) (d) :
    QBody.check (.set k l r d : QBody) =
      ( do
    let a ← l.check
    let b ← r.check
    setQueryType k d a b) := rfl
theorem QBody_check_table (t) :
    QBody.check (.table t : QBody) =
      ( do
    t.check
    .ok .unknown) := rfl
theorem QBody_check_values (es) :
    QBody.check (.values es : QBody) =
      ( do
    let ts ← Expr.checks es
    valuesType .unknown ts) := rfl
theorem Win_checkNamed_nil :
    Win.checkNamed ([] : List (Str × Win)) =
      ( .ok ()) := rfl
theorem Win_checkNamed_cons (u1_) (w) (ws) :
    Win.checkNamed ((u1_, w) :: ws : List (Str × Win)) =
      ( do
    w.check
    Win.checkNamed ws) := rfl
theorem Named_check_mk (r) (u1_) (u2_) :
    Named.check (.mk r u1_ u2_ : Named) =
      ( r.check) := rfl
theorem Named_checks_nil :
    Named.checks ([] : List Named) =
      ( .ok ()) := rfl
theorem Named_checks_cons (n) (ns) :
    Named.checks (n :: ns : List Named) =
      ( do
    n.check
    Named.checks ns) := rfl
theorem Rel_check_table (t) :
    Rel.check (.table t : Rel) =
      ( t.check) := rfl
theorem Rel_check_query (q) :
    Rel.check (.query q : Rel) =
      ( do
    let _ ← q.check
    .ok ()) := rfl
theorem Rel_check_aliased (n) :
    Rel.check (.aliased n : Rel) =
      ( n.check) := rfl
theorem Rel_check_join (l) (r) (t) (nat) (cr) :
    Rel.check (.join l r t nat cr : Rel) =
      ( do
    l.check
    r.check
    Crit.checkOpt cr
    if joinConfigOk t nat cr.isSome then .ok () else .error .assertion) := rfl
theorem Rel_check_unnest (as) (u1_) :
    Rel.check (.unnest as u1_ : Rel) =
      ( do
    let _ ← Expr.checks as
    .ok ()) := rfl
theorem Rel_check_lateral (q) :
    Rel.check (.lateral q : Rel) =
      ( do
    let _ ← q.check
    .ok ()) := rfl
theorem Rel_check_sample (r) (u1_) (p) :
    Rel.check (.sample r u1_ p : Rel) =
      ( do
    r.check
    let _ ← p.check
    .ok ()) := rfl
theorem Crit_check_using (u1_) :
    Crit.check (.using u1_ : Crit) =
      ( .ok ()) := rfl
theorem Crit_check_on (e) :
    Crit.check (.on e : Crit) =
      ( do
    let _ ← e.check
    .ok ()) := rfl

end Treeno
