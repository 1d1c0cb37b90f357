import Verif.Spec.Stable
/-!
# Equation lemmas of the functions in `Verif/Spec/Stable.lean`, one per match arm (all by `rfl`)
-/
set_option linter.unusedVariables false
namespace Treeno
open Spec

theorem Expr_Stable_lit (bs) (o) (u1_) (u2_) :
    Expr.Stable bs o (.lit u1_ u2_ : Expr) =
      ( True) := rfl
theorem Expr_Stable_field (bs) (o) (n) (tn) (u1_) :
    Expr.Stable bs o (.field n tn u1_ : Expr) =
      ( (truthy tn = none → n ∉ bs)) := rfl
theorem Expr_Stable_fieldOf (bs) (o) (u1_) (b) (u2_) :
    Expr.Stable bs o (.fieldOf u1_ b u2_ : Expr) =
      ( b.Stable bs o) := rfl
theorem Expr_Stable_alias (bs) (o) (v) (u1_) :
    Expr.Stable bs o (.alias v u1_ : Expr) =
      ( v.Stable bs o) := rfl
theorem Expr_Stable_star (bs) (o) (u1_) (u2_) :
    Expr.Stable bs o (.star u1_ u2_ : Expr) =
      ( True) := rfl
theorem Expr_Stable_starOf (bs) (o) (b) (u1_) :
    Expr.Stable bs o (.starOf b u1_ : Expr) =
      ( b.Stable bs o) := rfl
theorem Expr_Stable_aliasedStar (bs) (o) (s) (u1_) :
    Expr.Stable bs o (.aliasedStar s u1_ : Expr) =
      ( s.Stable bs o) := rfl
theorem Expr_Stable_var (bs) (o) (n) :
    Expr.Stable bs o (.var n : Expr) =
      ( n ∈ bs) := rfl
theorem Expr_Stable_lam (bs) (o) (ins) (b) :
    Expr.Stable bs o (.lam ins b : Expr) =
      ( b.Stable (ins ++ bs) o) := rfl
theorem Expr_Stable_un (bs) (o) (op) (v) :
    Expr.Stable bs o (.un op v : Expr) =
      ( v.Stable bs o ∧ Upright v ∧ SignStable op v) := rfl
theorem Expr_Stable_bin (bs) (o) (op) (l) (r) :
    Expr.Stable bs o (.bin op l r : Expr) =
      ( l.Stable bs o ∧ r.Stable bs o ∧ (op = .and ∨ op = .or ∨ op = .distinct ∨ Upright l ∧ Upright r)) := rfl
theorem Expr_Stable_not (bs) (o) (v) :
    Expr.Stable bs o (.not v : Expr) =
      ( v.Stable bs o ∧ Upright v ∧ NotStable o v) := rfl
theorem Expr_Stable_isNull (bs) (o) (v) :
    Expr.Stable bs o (.isNull v : Expr) =
      ( v.Stable bs o ∧ Upright v) := rfl
theorem Expr_Stable_between (bs) (o) (v) (l) (u) :
    Expr.Stable bs o (.between v l u : Expr) =
      ( v.Stable bs o ∧ l.Stable bs o ∧ u.Stable bs o ∧ Upright v ∧ Upright l ∧ Upright u) := rfl
theorem Expr_Stable_array (bs) (o) (vs) :
    Expr.Stable bs o (.array vs : Expr) =
      ( Expr.Stables bs o vs) := rfl
theorem Expr_Stable_inQuery (bs) (o) (v) (q) :
    Expr.Stable bs o (.inQuery v q : Expr) =
      ( v.Stable bs o ∧ q.Stable bs o ∧ Upright v) := rfl
theorem Expr_Stable_inList (bs) (o) (v) (es) :
    Expr.Stable bs o (.inList v es : Expr) =
      ( v.Stable bs o ∧ Expr.Stables bs o es ∧ Upright v) := rfl
theorem Expr_Stable_like (bs) (o) (v) (p) (e) :
    Expr.Stable bs o (.like v p e : Expr) =
      ( v.Stable bs o ∧ p.Stable bs o ∧ Expr.StableOpt bs o e ∧ Upright v ∧ Upright p) := rfl
theorem Expr_Stable_typeCtor (bs) (o) (u1_) (u2_) :
    Expr.Stable bs o (.typeCtor u1_ u2_ : Expr) =
      ( True) := rfl
theorem Expr_Stable_row (bs) (o) (vs) :
    Expr.Stable bs o (.row vs : Expr) =
      ( Expr.Stables bs o vs) := rfl
theorem Expr_Stable_interval (bs) (o) (u1_) (u2_) (u3_) :
    Expr.Stable bs o (.interval u1_ u2_ u3_ : Expr) =
      ( True) := rfl
theorem Expr_Stable_cast (bs) (o) (u1_) (e) (u2_) :
    Expr.Stable bs o (.cast u1_ e u2_ : Expr) =
      ( e.Stable bs o) := rfl
theorem Expr_Stable_subscript (bs) (o) (v) (i) :
    Expr.Stable bs o (.subscript v i : Expr) =
      ( v.Stable bs o ∧ i.Stable bs o) := rfl
theorem Expr_Stable_case (bs) (o) (v) (ws) (e) :
    Expr.Stable bs o (.case v ws e : Expr) =
      ( Expr.StableOpt bs o v ∧ Expr.StableWhens bs o ws ∧ Expr.StableOpt bs o e) := rfl
theorem Expr_Stable_func (bs) (o) (u1_) (as) :
    Expr.Stable bs o (.func u1_ as : Expr) =
      ( Expr.Stables bs o as) := rfl
theorem Expr_Stable_agg (bs) (o) (u1_) (as) (ob) (fl) (w) (u2_) :
    Expr.Stable bs o (.agg u1_ as ob fl w u2_ : Expr) =
      ( Expr.Stables bs o as ∧ Ord.Stables bs o ob ∧ Expr.StableOpt bs o fl ∧ Win.StableOpt bs o w) := rfl
theorem Expr_Stable_listagg (bs) (o) (v) (u1_) (u2_) (ob) :
    Expr.Stable bs o (.listagg v u1_ u2_ ob : Expr) =
      ( v.Stable bs o ∧ Ord.Stables bs o ob) := rfl
theorem Expr_Stable_curTime (bs) (o) (u1_) (u2_) :
    Expr.Stable bs o (.curTime u1_ u2_ : Expr) =
      ( True) := rfl
theorem Expr_Stable_session (bs) (o) (u1_) :
    Expr.Stable bs o (.session u1_ : Expr) =
      ( True) := rfl
theorem Expr_Stable_normalize (bs) (o) (v) (u1_) :
    Expr.Stable bs o (.normalize v u1_ : Expr) =
      ( v.Stable bs o) := rfl
theorem Expr_Stable_query (bs) (o) (q) :
    Expr.Stable bs o (.query q : Expr) =
      ( q.Stable bs o) := rfl
theorem Ord_Stable_mk (bs) (o) (v) (u1_) (u2_) :
    Ord.Stable bs o (.mk v u1_ u2_ : Ord) =
      ( v.Stable bs o) := rfl
theorem Bound_Stable_bounded (bs) (o) (u1_) (e) :
    Bound.Stable bs o (.bounded u1_ e : Bound) =
      ( e.Stable bs o) := rfl
theorem Bound_Stable_unbounded (bs) (o) (u1_) :
    Bound.Stable bs o (.unbounded u1_ : Bound) =
      ( True) := rfl
theorem Bound_Stable_current (bs) (o) :
    Bound.Stable bs o (.current : Bound) =
      ( True) := rfl
theorem Win_Stable_mk (bs) (o) (u1_) (ob) (ps) (u2_) (st) (en) :
    Win.Stable bs o (.mk u1_ ob ps u2_ st en : Win) =
      ( Ord.Stables bs o ob ∧ Expr.Stables bs o ps ∧ st.Stable bs o ∧ en.Stable bs o) := rfl
theorem Grp_Stable_set (bs) (o) (vs) :
    Grp.Stable bs o (.set vs : Grp) =
      ( Expr.Stables bs o vs) := rfl
theorem Grp_Stable_sets (bs) (o) (gs) :
    Grp.Stable bs o (.sets gs : Grp) =
      ( Expr.StableLists bs o gs) := rfl
theorem Grp_Stable_cube (bs) (o) (vs) :
    Grp.Stable bs o (.cube vs : Grp) =
      ( Expr.Stables bs o vs) := rfl
theorem Grp_Stable_rollup (bs) (o) (vs) :
    Grp.Stable bs o (.rollup vs : Grp) =
      ( Expr.Stables bs o vs) := rfl
theorem GroupBy_Stable_mk (bs) (o) (gs) (u1_) :
    GroupBy.Stable bs o (.mk gs u1_ : GroupBy) =
      ( Grp.Stables bs o gs) := rfl
theorem Query_Stable_mk (bs) (o) (b) (u1_) (u2_) (ob) (w) :
    Query.Stable bs o (.mk b u1_ u2_ ob w : Query) =
      ( b.Stable bs o ∧ Ord.Stables bs o ob ∧ Named.Stables bs o w) := rfl
theorem QBody_Stable_select (bs) (o) (items) (fr) (wh) (gb) (hv) (u1_) (wins) :
    QBody.Stable bs o (.select items fr wh gb hv u1_ wins : QBody) =
      ( Expr.Stables bs o items ∧ Rel.StableOpt bs o fr ∧ Expr.StableOpt bs o wh ∧ GroupBy.StableOpt bs o gb ∧ Expr.StableOpt bs o hv ∧ Win.StableNamed bs o wins) := rfl
theorem QBody_Stable_set (bs) (o) (u1_) (l) (r) (u2_) :
    QBody.Stable bs o (.set u1_ l r u2_ : QBody) =
      ( l.Stable bs o ∧ r.Stable bs o) := rfl
theorem QBody_Stable_table (bs) (o) (u1_) :
    QBody.Stable bs o (.table u1_ : QBody) =
      ( True) := rfl
theorem QBody_Stable_values (bs) (o) (es) :
    QBody.Stable bs o (.values es : QBody) =
      ( Expr.Stables bs o es) := rfl
theorem Named_Stable_mk (bs) (o) (r) (u1_) (u2_) :
    Named.Stable bs o (.mk r u1_ u2_ : Named) =
      ( r.Stable bs o) := rfl
theorem Rel_Stable_table (bs) (o) (u1_) :
    Rel.Stable bs o (.table u1_ : Rel) =
      ( True) := rfl
theorem Rel_Stable_query (bs) (o) (q) :
    Rel.Stable bs o (.query q : Rel) =
      ( q.Stable bs o) := rfl
theorem Rel_Stable_aliased (bs) (o) (n) :
    Rel.Stable bs o (.aliased n : Rel) =
      ( n.Stable bs o) := rfl
theorem Rel_Stable_join (bs) (o) (l) (r) (u1_) (u2_) (cr) :
    Rel.Stable bs o (.join l r u1_ u2_ cr : Rel) =
      ( l.Stable bs o ∧ r.Stable bs o ∧ Crit.StableOpt bs o cr) := rfl
theorem Rel_Stable_unnest (bs) (o) (as) (u1_) :
    Rel.Stable bs o (.unnest as u1_ : Rel) =
      ( Expr.Stables bs o as) := rfl
theorem Rel_Stable_lateral (bs) (o) (q) :
    Rel.Stable bs o (.lateral q : Rel) =
      ( q.Stable bs o) := rfl
theorem Rel_Stable_sample (bs) (o) (r) (u1_) (p) :
    Rel.Stable bs o (.sample r u1_ p : Rel) =
      ( r.Stable bs o ∧ p.Stable bs o) := rfl
theorem Crit_Stable_using (bs) (o) (u1_) :
    Crit.Stable bs o (.using u1_ : Crit) =
      ( True) := rfl
theorem Crit_Stable_on (bs) (o) (e) :
    Crit.Stable bs o (.on e : Crit) =
      ( e.Stable bs o) := rfl
theorem Expr_StableOpt_none (bs) (o) :
    Expr.StableOpt bs o (none : Option Expr) =
      ( True) := rfl
theorem Expr_StableOpt_some (bs) (o) (x) :
    Expr.StableOpt bs o (some x : Option Expr) =
      ( x.Stable bs o) := rfl
theorem Expr_Stables_nil (bs) (o) :
    Expr.Stables bs o ([] : List Expr) =
      ( True) := rfl
theorem Expr_Stables_cons (bs) (o) (x) (xs) :
    Expr.Stables bs o (x :: xs : List Expr) =
      ( x.Stable bs o ∧ Expr.Stables bs o xs) := rfl
theorem Expr_StableLists_nil (bs) (o) :
    Expr.StableLists bs o ([] : List (List Expr)) =
      ( True) := rfl
theorem Expr_StableLists_cons (bs) (o) (x) (xs) :
    Expr.StableLists bs o (x :: xs : List (List Expr)) =
      ( Expr.Stables bs o x ∧ Expr.StableLists bs o xs) := rfl
theorem Expr_StableWhens_nil (bs) (o) :
    Expr.StableWhens bs o ([] : List (Expr × Expr)) =
      ( True) := rfl
theorem Expr_StableWhens_cons (bs) (o) (c) (v) (xs) :
    Expr.StableWhens bs o ((c, v) :: xs : List (Expr × Expr)) =
      ( c.Stable bs o ∧ v.Stable bs o ∧ Expr.StableWhens bs o xs) := rfl
theorem Ord_Stables_nil (bs) (o) :
    Ord.Stables bs o ([] : List Ord) =
      ( True) := rfl
theorem Ord_Stables_cons (bs) (o) (x) (xs) :
    Ord.Stables bs o (x :: xs : List Ord) =
      ( x.Stable bs o ∧ Ord.Stables bs o xs) := rfl
theorem Win_StableOpt_none (bs) (o) :
    Win.StableOpt bs o (none : Option Win) =
      ( True) := rfl
theorem Win_StableOpt_some (bs) (o) (x) :
    Win.StableOpt bs o (some x : Option Win) =
      ( x.Stable bs o) := rfl
theorem Grp_Stables_nil (bs) (o) :
    Grp.Stables bs o ([] : List Grp) =
      ( True) := rfl
theorem Grp_Stables_cons (bs) (o) (x) (xs) :
    Grp.Stables bs o (x :: xs : List Grp) =
      ( x.Stable bs o ∧ Grp.Stables bs o xs) := rfl
theorem GroupBy_StableOpt_none (bs) (o) :
    GroupBy.StableOpt bs o (none : Option GroupBy) =
      ( True) := rfl
theorem GroupBy_StableOpt_some (bs) (o) (x) :
    GroupBy.StableOpt bs o (some x : Option GroupBy) =
      ( x.Stable bs o) := rfl
theorem Win_StableNamed_nil (bs) (o) :
    Win.StableNamed bs o ([] : List (Str × Win)) =
      ( True) := rfl
theorem Win_StableNamed_cons (bs) (o) (u1_) (w) (xs) :
    Win.StableNamed bs o ((u1_, w) :: xs : List (Str × Win)) =
      ( w.Stable bs o ∧ Win.StableNamed bs o xs) := rfl
theorem Named_Stables_nil (bs) (o) :
    Named.Stables bs o ([] : List Named) =
      ( True) := rfl
theorem Named_Stables_cons (bs) (o) (x) (xs) :
    Named.Stables bs o (x :: xs : List Named) =
      ( x.Stable bs o ∧ Named.Stables bs o xs) := rfl
theorem Rel_StableOpt_none (bs) (o) :
    Rel.StableOpt bs o (none : Option Rel) =
      ( True) := rfl
theorem Rel_StableOpt_some (bs) (o) (x) :
    Rel.StableOpt bs o (some x : Option Rel) =
      ( x.Stable bs o) := rfl
theorem Crit_StableOpt_none (bs) (o) :
    Crit.StableOpt bs o (none : Option Crit) =
      ( True) := rfl
theorem Crit_StableOpt_some (bs) (o) (x) :
    Crit.StableOpt bs o (some x : Option Crit) =
      ( x.Stable bs o) := rfl

end Treeno
