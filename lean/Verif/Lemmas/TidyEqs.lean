import Verif.Spec.Tidy
/-!
# Equation lemmas of the functions in `Verif/Spec/Tidy.lean`, one per match arm (all by `rfl`)
-/
set_option linter.unusedVariables false
namespace Treeno
open Spec

theorem Expr_Tidy_lit (item) (v) (u1_) :
    Expr.Tidy item (.lit v u1_ : Expr) =
      ( LitOk v) := rfl
theorem Expr_Tidy_field (item) (n) (t) (u1_) :
    Expr.Tidy item (.field n t u1_ : Expr) =
      ( NameOk n ∧ IfAny NameOk (truthy t)) := rfl
theorem Expr_Tidy_fieldOf (item) (u1_) (u2_) (u3_) :
    Expr.Tidy item (.fieldOf u1_ u2_ u3_ : Expr) =
      ( False) := rfl
theorem Expr_Tidy_alias (item) (v) (n) :
    Expr.Tidy item (.alias v n : Expr) =
      ( item = true ∧ NameOk n ∧ v.Tidy false) := rfl
theorem Expr_Tidy_star (item) (t) (u1_) :
    Expr.Tidy item (.star t u1_ : Expr) =
      ( item = true ∧ IfAny IsWord (truthy t)) := rfl
theorem Expr_Tidy_starOf (item) (u1_) (u2_) :
    Expr.Tidy item (.starOf u1_ u2_ : Expr) =
      ( False) := rfl
theorem Expr_Tidy_aliasedStar (item) (u1_) (u2_) :
    Expr.Tidy item (.aliasedStar u1_ u2_ : Expr) =
      ( False) := rfl
theorem Expr_Tidy_var (item) (n) :
    Expr.Tidy item (.var n : Expr) =
      ( IsWord n) := rfl
theorem Expr_Tidy_lam (item) (ins) (b) :
    Expr.Tidy item (.lam ins b : Expr) =
      ( ins ≠ [] ∧ (∀ n ∈ ins, IsWord n) ∧ b.Tidy false) := rfl
theorem Expr_Tidy_un (item) (op) (v) :
    Expr.Tidy item (.un op v : Expr) =
      ( v.Tidy false ∧ (op = .neg → needsParen (some 8) v.prec true = true ∨ v.first ≠ .dash)) := rfl
theorem Expr_Tidy_bin (item) (u1_) (l) (r) :
    Expr.Tidy item (.bin u1_ l r : Expr) =
      ( l.Tidy false ∧ r.Tidy false) := rfl
theorem Expr_Tidy_not (item) (v) :
    Expr.Tidy item (.not v : Expr) =
      ( v.Tidy false) := rfl
theorem Expr_Tidy_isNull (item) (v) :
    Expr.Tidy item (.isNull v : Expr) =
      ( v.Tidy false) := rfl
theorem Expr_Tidy_between (item) (v) (l) (u) :
    Expr.Tidy item (.between v l u : Expr) =
      ( v.Tidy false ∧ l.Tidy false ∧ u.Tidy false) := rfl
theorem Expr_Tidy_array (item) (vs) :
    Expr.Tidy item (.array vs : Expr) =
      ( Expr.Tidys false vs) := rfl
theorem Expr_Tidy_inQuery (item) (v) (q) :
    Expr.Tidy item (.inQuery v q : Expr) =
      ( v.Tidy false ∧ q.Tidy) := rfl
theorem Expr_Tidy_inList (item) (v) (es) :
    Expr.Tidy item (.inList v es : Expr) =
      ( v.Tidy false ∧ Expr.Tidys false es) := rfl
theorem Expr_Tidy_like (item) (v) (p) (e) :
    Expr.Tidy item (.like v p e : Expr) =
      ( v.Tidy false ∧ p.Tidy false ∧ Expr.TidyOpt e) := rfl
theorem Expr_Tidy_typeCtor (item) (v) (t) :
    Expr.Tidy item (.typeCtor v t : Expr) =
      ( StrOk v ∧ IsWord t) := rfl
theorem Expr_Tidy_row (item) (vs) :
    Expr.Tidy item (.row vs : Expr) =
      ( Expr.Tidys false vs) := rfl
theorem Expr_Tidy_interval (item) (u1_) (u2_) (u3_) :
    Expr.Tidy item (.interval u1_ u2_ u3_ : Expr) =
      ( False) := rfl
theorem Expr_Tidy_cast (item) (u1_) (e) (u2_) :
    Expr.Tidy item (.cast u1_ e u2_ : Expr) =
      ( e.Tidy false) := rfl
theorem Expr_Tidy_subscript (item) (v) (i) :
    Expr.Tidy item (.subscript v i : Expr) =
      ( v.Tidy false ∧ i.Tidy false) := rfl
theorem Expr_Tidy_case (item) (v) (bs) (e) :
    Expr.Tidy item (.case v bs e : Expr) =
      ( Expr.TidyOpt v ∧ bs ≠ [] ∧ Expr.TidyWhens bs ∧ Expr.TidyOpt e) := rfl
theorem Expr_Tidy_func (item) (u1_) (as) :
    Expr.Tidy item (.func u1_ as : Expr) =
      ( Expr.Tidys false as) := rfl
theorem Expr_Tidy_agg (item) (u1_) (as) (ob) (fl) (w) (ign) :
    Expr.Tidy item (.agg u1_ as ob fl w ign : Expr) =
      ( Expr.Tidys (isStarArg as) as ∧ (isStarArg as = true → ob = [] ∧ ign = false) ∧ (as = [] → ob = []) ∧ Ord.Tidys ob ∧ Expr.TidyOpt fl ∧ Win.TidyOpt w) := rfl
theorem Expr_Tidy_listagg (item) (v) (sep) (ov) (ob) :
    Expr.Tidy item (.listagg v sep ov ob : Expr) =
      ( v.Tidy false ∧ StrOk sep ∧ IfAny (fun f => StrOk f.1) ov ∧ Ord.Tidys ob) := rfl
theorem Expr_Tidy_curTime (item) (u1_) (p) :
    Expr.Tidy item (.curTime u1_ p : Expr) =
      ( 0 ≤ p) := rfl
theorem Expr_Tidy_session (item) (u1_) :
    Expr.Tidy item (.session u1_ : Expr) =
      ( True) := rfl
theorem Expr_Tidy_normalize (item) (u1_) (u2_) :
    Expr.Tidy item (.normalize u1_ u2_ : Expr) =
      ( False) := rfl
theorem Expr_Tidy_query (item) (u1_) :
    Expr.Tidy item (.query u1_ : Expr) =
      ( False) := rfl
theorem Expr_TidyOpt_none :
    Expr.TidyOpt (none : Option Expr) =
      ( True) := rfl
theorem Expr_TidyOpt_some (e) :
    Expr.TidyOpt (some e : Option Expr) =
      ( e.Tidy false) := rfl
theorem Win_TidyOpt_none :
    Win.TidyOpt (none : Option Win) =
      ( True) := rfl
theorem Win_TidyOpt_some (w) :
    Win.TidyOpt (some w : Option Win) =
      ( w.Tidy) := rfl
theorem GroupBy_TidyOpt_none :
    GroupBy.TidyOpt (none : Option GroupBy) =
      ( True) := rfl
theorem GroupBy_TidyOpt_some (g) :
    GroupBy.TidyOpt (some g : Option GroupBy) =
      ( g.Tidy) := rfl
theorem Rel_TidyOpt_none :
    Rel.TidyOpt (none : Option Rel) =
      ( True) := rfl
theorem Rel_TidyOpt_some (r) :
    Rel.TidyOpt (some r : Option Rel) =
      ( r.Tidy) := rfl
theorem Crit_TidyOpt_none :
    Crit.TidyOpt (none : Option Crit) =
      ( True) := rfl
theorem Crit_TidyOpt_some (c) :
    Crit.TidyOpt (some c : Option Crit) =
      ( c.Tidy) := rfl
theorem Expr_Tidys_nil (item) :
    Expr.Tidys item ([] : List Expr) =
      ( True) := rfl
theorem Expr_Tidys_cons (item) (e) (es) :
    Expr.Tidys item (e :: es : List Expr) =
      ( e.Tidy item ∧ Expr.Tidys item es) := rfl
theorem Expr_TidyWhens_nil :
    Expr.TidyWhens ([] : List (Expr × Expr)) =
      ( True) := rfl
theorem Expr_TidyWhens_cons (c) (v) (bs) :
    Expr.TidyWhens ((c, v) :: bs : List (Expr × Expr)) =
      ( c.Tidy false ∧ v.Tidy false ∧ Expr.TidyWhens bs) := rfl
theorem Ord_Tidy_mk (v) (u1_) (u2_) :
    Ord.Tidy (.mk v u1_ u2_ : Ord) =
      ( v.Tidy false) := rfl
theorem Ord_Tidys_nil :
    Ord.Tidys ([] : List Ord) =
      ( True) := rfl
theorem Ord_Tidys_cons (x) (xs) :
    Ord.Tidys (x :: xs : List Ord) =
      ( x.Tidy ∧ Ord.Tidys xs) := rfl
theorem Bound_Tidy_bounded (u1_) (e) :
    Bound.Tidy (.bounded u1_ e : Bound) =
      ( e.Tidy false) := rfl
theorem Bound_Tidy_unbounded (u1_) :
    Bound.Tidy (.unbounded u1_ : Bound) =
      ( True) := rfl
theorem Bound_Tidy_current :
    Bound.Tidy (.current : Bound) =
      ( True) := rfl
theorem Win_Tidy_mk (p) (ob) (ps) (u1_) (st) (en) :
    Win.Tidy (.mk p ob ps u1_ st en : Win) =
      ( IfAny IsWord (truthy p) ∧ Ord.Tidys ob ∧ Expr.Tidys false ps ∧ st.Tidy ∧ en.Tidy) := rfl
theorem Grp_Tidy_set (vs) :
    Grp.Tidy (.set vs : Grp) =
      ( Expr.Tidys false vs) := rfl
theorem Grp_Tidy_sets (gs) :
    Grp.Tidy (.sets gs : Grp) =
      ( Expr.TidyLists gs) := rfl
theorem Grp_Tidy_cube (vs) :
    Grp.Tidy (.cube vs : Grp) =
      ( Expr.Tidys false vs) := rfl
theorem Grp_Tidy_rollup (vs) :
    Grp.Tidy (.rollup vs : Grp) =
      ( Expr.Tidys false vs) := rfl
theorem Expr_TidyLists_nil :
    Expr.TidyLists ([] : List (List Expr)) =
      ( True) := rfl
theorem Expr_TidyLists_cons (vs) (gs) :
    Expr.TidyLists (vs :: gs : List (List Expr)) =
      ( Expr.Tidys false vs ∧ Expr.TidyLists gs) := rfl
theorem Grp_Tidys_nil :
    Grp.Tidys ([] : List Grp) =
      ( True) := rfl
theorem Grp_Tidys_cons (g) (gs) :
    Grp.Tidys (g :: gs : List Grp) =
      ( g.Tidy ∧ Grp.Tidys gs) := rfl
theorem GroupBy_Tidy_mk (gs) (u1_) :
    GroupBy.Tidy (.mk gs u1_ : GroupBy) =
      ( gs ≠ [] ∧ Grp.Tidys gs) := rfl
theorem Query_Tidy_mk (body) (off) (lim) (ob) (w) :
    Query.Tidy (.mk body off lim ob w : Query) =
      ( body.Tidy ∧ IfAny (fun n => 0 ≤ n) off ∧ IfAny (fun n => 0 ≤ n) lim ∧ Ord.Tidys ob ∧ Named.Tidys w) := rfl
theorem QBody_Tidy_select (items) (fr) (wh) (gb) (hv) (u1_) (wins) :
    QBody.Tidy (.select items fr wh gb hv u1_ wins : QBody) =
      ( items ≠ [] ∧ Expr.Tidys true items ∧ Rel.TidyOpt fr ∧ Expr.TidyOpt wh ∧ GroupBy.TidyOpt gb ∧ Expr.TidyOpt hv ∧ Win.TidyNamed wins) := rfl
theorem QBody_Tidy_set (u1_) (l) (r) (u2_) :
    QBody.Tidy (.set u1_ l r u2_ : QBody) =
      ( l.Tidy ∧ r.Tidy ∧ l.noWith ∧ r.noWith) := rfl
theorem QBody_Tidy_table (t) :
    QBody.Tidy (.table t : QBody) =
      ( TableOk t) := rfl
theorem QBody_Tidy_values (es) :
    QBody.Tidy (.values es : QBody) =
      ( es ≠ [] ∧ Expr.Tidys false es) := rfl
theorem Win_TidyNamed_nil :
    Win.TidyNamed ([] : List (Str × Win)) =
      ( True) := rfl
theorem Win_TidyNamed_cons (n) (w) (ws) :
    Win.TidyNamed ((n, w) :: ws : List (Str × Win)) =
      ( IsWord n ∧ w.Tidy ∧ Win.TidyNamed ws) := rfl
theorem Named_Tidy_mk (r) (a) (cols) :
    Named.Tidy (.mk r a cols : Named) =
      ( r.Tidy ∧ NameOk a ∧ ∀ n ∈ cols, IsWord n) := rfl
theorem Named_TidyWith_mk (r) (a) (cols) :
    Named.TidyWith (.mk r a cols : Named) =
      ( r.Tidy ∧ r.isQuery = true ∧ NameOk a ∧ cols = []) := rfl
theorem Named_Tidys_nil :
    Named.Tidys ([] : List Named) =
      ( True) := rfl
theorem Named_Tidys_cons (n) (ns) :
    Named.Tidys (n :: ns : List Named) =
      ( n.TidyWith ∧ Named.Tidys ns) := rfl
theorem Rel_Tidy_table (t) :
    Rel.Tidy (.table t : Rel) =
      ( TableOk t) := rfl
theorem Rel_Tidy_query (q) :
    Rel.Tidy (.query q : Rel) =
      ( q.Tidy) := rfl
theorem Rel_Tidy_aliased (n) :
    Rel.Tidy (.aliased n : Rel) =
      ( n.Tidy) := rfl
theorem Rel_Tidy_join (l) (r) (t) (nat) (cr) :
    Rel.Tidy (.join l r t nat cr : Rel) =
      ( l.Tidy ∧ r.Tidy ∧ JoinOk t nat cr.isSome ∧ Crit.TidyOpt cr) := rfl
theorem Rel_Tidy_unnest (as) (ord) :
    Rel.Tidy (.unnest as ord : Rel) =
      ( Expr.Tidys false as ∧ ord = false) := rfl
theorem Rel_Tidy_lateral (q) :
    Rel.Tidy (.lateral q : Rel) =
      ( q.Tidy) := rfl
theorem Rel_Tidy_sample (r) (u1_) (p) :
    Rel.Tidy (.sample r u1_ p : Rel) =
      ( r.Tidy ∧ p.Tidy false) := rfl
theorem Crit_Tidy_using (cols) :
    Crit.Tidy (.using cols : Crit) =
      ( cols ≠ [] ∧ ∀ n ∈ cols, IsWord n) := rfl
theorem Crit_Tidy_on (e) :
    Crit.Tidy (.on e : Crit) =
      ( e.Tidy false) := rfl

end Treeno
