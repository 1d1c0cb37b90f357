import Verif.Spec.Fits
/-!
# Equation lemmas of the functions in `Verif/Spec/Fits.lean`, one per match arm (all by `rfl`)
-/
set_option linter.unusedVariables false
namespace Treeno
open Spec

theorem Expr_Fits_lit (v) (u1_) :
    Expr.Fits (.lit v u1_ : Expr) =
      ( LitFits v) := rfl
theorem Expr_Fits_field (u1_) (u2_) (u3_) :
    Expr.Fits (.field u1_ u2_ u3_ : Expr) =
      ( True) := rfl
theorem Expr_Fits_fieldOf (u1_) (u2_) (u3_) :
    Expr.Fits (.fieldOf u1_ u2_ u3_ : Expr) =
      ( True) := rfl
theorem Expr_Fits_alias (v) (u1_) :
    Expr.Fits (.alias v u1_ : Expr) =
      ( v.Fits) := rfl
theorem Expr_Fits_star (t) (u1_) :
    Expr.Fits (.star t u1_ : Expr) =
      ( IfAny FreeWord (truthy t)) := rfl
theorem Expr_Fits_starOf (u1_) (u2_) :
    Expr.Fits (.starOf u1_ u2_ : Expr) =
      ( True) := rfl
theorem Expr_Fits_aliasedStar (u1_) (u2_) :
    Expr.Fits (.aliasedStar u1_ u2_ : Expr) =
      ( True) := rfl
theorem Expr_Fits_var (n) :
    Expr.Fits (.var n : Expr) =
      ( FreeWord n) := rfl
theorem Expr_Fits_lam (ins) (b) :
    Expr.Fits (.lam ins b : Expr) =
      ( (∀ n ∈ ins, FreeWord n) ∧ b.Fits ∧ b.reread.Body) := rfl
theorem Expr_Fits_un (op) (v) :
    Expr.Fits (.un op v : Expr) =
      ( v.Fits ∧ v.At (some 8) true 7 ∧ SignFits op v ∧ (op = .neg → isNumber v = true ∨ needsParen (some 8) v.prec true = true ∨ v.first ≠ .num)) := rfl
theorem Expr_Fits_bin (op) (l) (r) :
    Expr.Fits (.bin op l r : Expr) =
      ( l.Fits ∧ r.Fits ∧ l.At op.prec true (leftLevel op) ∧ r.At op.prec false (rightLevel op)) := rfl
theorem Expr_Fits_not (v) :
    Expr.Fits (.not v : Expr) =
      ( v.Fits ∧ (v.negatable = false → v.At (some 2) true 2)) := rfl
theorem Expr_Fits_isNull (v) :
    Expr.Fits (.isNull v : Expr) =
      ( v.Fits ∧ v.At (some 3) true 4) := rfl
theorem Expr_Fits_between (v) (l) (u) :
    Expr.Fits (.between v l u : Expr) =
      ( v.Fits ∧ l.Fits ∧ u.Fits ∧ v.At (some 3) true 4 ∧ l.At (some 3) true 4 ∧ u.At (some 3) true 4) := rfl
theorem Expr_Fits_array (vs) :
    Expr.Fits (.array vs : Expr) =
      ( Expr.Fitss vs) := rfl
theorem Expr_Fits_inQuery (v) (q) :
    Expr.Fits (.inQuery v q : Expr) =
      ( v.Fits ∧ q.Fits ∧ v.At (some 3) true 4) := rfl
theorem Expr_Fits_inList (v) (es) :
    Expr.Fits (.inList v es : Expr) =
      ( v.Fits ∧ Expr.Fitss es ∧ v.At (some 3) true 4 ∧ es ≠ []) := rfl
theorem Expr_Fits_like (v) (p) (e) :
    Expr.Fits (.like v p e : Expr) =
      ( v.Fits ∧ p.Fits ∧ Expr.FitsOpt e ∧ v.At (some 3) true 4 ∧ p.At (some 3) true 4 ∧ IfAny (fun x => x.At none true 4) e) := rfl
theorem Expr_Fits_typeCtor (u1_) (t) :
    Expr.Fits (.typeCtor u1_ t : Expr) =
      ( FreeWord t) := rfl
theorem Expr_Fits_row (vs) :
    Expr.Fits (.row vs : Expr) =
      ( Expr.Fitss vs ∧ 2 ≤ vs.length) := rfl
theorem Expr_Fits_interval (u1_) (u2_) (u3_) :
    Expr.Fits (.interval u1_ u2_ u3_ : Expr) =
      ( True) := rfl
theorem Expr_Fits_cast (u1_) (e) (t) :
    Expr.Fits (.cast u1_ e t : Expr) =
      ( e.Fits ∧ Valid t ∧ Readable t) := rfl
theorem Expr_Fits_subscript (v) (i) :
    Expr.Fits (.subscript v i : Expr) =
      ( v.Fits ∧ i.Fits ∧ v.At none true 8 ∧ i.At none true 4) := rfl
theorem Expr_Fits_case (v) (bs) (e) :
    Expr.Fits (.case v bs e : Expr) =
      ( Expr.FitsOpt v ∧ Expr.FitsWhens bs ∧ Expr.FitsOpt e) := rfl
theorem Expr_Fits_func (f) (as) :
    Expr.Fits (.func f as : Expr) =
      ( Expr.Fitss as ∧ FnFits f as.length) := rfl
theorem Expr_Fits_agg (f) (as) (ob) (fl) (w) (ign) :
    Expr.Fits (.agg f as ob fl w ign : Expr) =
      ( Expr.Fitss as ∧ Ord.Fitss ob ∧ Expr.FitsOpt fl ∧ Win.FitsOpt w ∧ AggFits f as.length ∧ (ign = true → w.isSome = true)) := rfl
theorem Expr_Fits_listagg (v) (u1_) (u2_) (ob) :
    Expr.Fits (.listagg v u1_ u2_ ob : Expr) =
      ( v.Fits ∧ Ord.Fitss ob ∧ ob ≠ []) := rfl
theorem Expr_Fits_curTime (u1_) (u2_) :
    Expr.Fits (.curTime u1_ u2_ : Expr) =
      ( True) := rfl
theorem Expr_Fits_session (u1_) :
    Expr.Fits (.session u1_ : Expr) =
      ( True) := rfl
theorem Expr_Fits_normalize (u1_) (u2_) :
    Expr.Fits (.normalize u1_ u2_ : Expr) =
      ( True) := rfl
theorem Expr_Fits_query (u1_) :
    Expr.Fits (.query u1_ : Expr) =
      ( True) := rfl
theorem Expr_FitsOpt_none :
    Expr.FitsOpt (none : Option Expr) =
      ( True) := rfl
theorem Expr_FitsOpt_some (e) :
    Expr.FitsOpt (some e : Option Expr) =
      ( e.Fits) := rfl
theorem Win_FitsOpt_none :
    Win.FitsOpt (none : Option Win) =
      ( True) := rfl
theorem Win_FitsOpt_some (w) :
    Win.FitsOpt (some w : Option Win) =
      ( w.Fits) := rfl
theorem GroupBy_FitsOpt_none :
    GroupBy.FitsOpt (none : Option GroupBy) =
      ( True) := rfl
theorem GroupBy_FitsOpt_some (g) :
    GroupBy.FitsOpt (some g : Option GroupBy) =
      ( g.Fits) := rfl
theorem Rel_FitsOpt_none :
    Rel.FitsOpt (none : Option Rel) =
      ( True) := rfl
theorem Rel_FitsOpt_some (r) :
    Rel.FitsOpt (some r : Option Rel) =
      ( r.Fits) := rfl
theorem Crit_FitsOpt_none :
    Crit.FitsOpt (none : Option Crit) =
      ( True) := rfl
theorem Crit_FitsOpt_some (c) :
    Crit.FitsOpt (some c : Option Crit) =
      ( c.Fits) := rfl
theorem Expr_Fitss_nil :
    Expr.Fitss ([] : List Expr) =
      ( True) := rfl
theorem Expr_Fitss_cons (e) (es) :
    Expr.Fitss (e :: es : List Expr) =
      ( e.Fits ∧ Expr.Fitss es) := rfl
theorem Expr_FitsWhens_nil :
    Expr.FitsWhens ([] : List (Expr × Expr)) =
      ( True) := rfl
theorem Expr_FitsWhens_cons (c) (v) (bs) :
    Expr.FitsWhens ((c, v) :: bs : List (Expr × Expr)) =
      ( c.Fits ∧ v.Fits ∧ Expr.FitsWhens bs) := rfl
theorem Expr_FitsLists_nil :
    Expr.FitsLists ([] : List (List Expr)) =
      ( True) := rfl
theorem Expr_FitsLists_cons (vs) (gs) :
    Expr.FitsLists (vs :: gs : List (List Expr)) =
      ( Expr.Fitss vs ∧ Expr.OneFits vs ∧ Expr.FitsLists gs) := rfl
theorem Ord_Fits_mk (v) (u1_) (u2_) :
    Ord.Fits (.mk v u1_ u2_ : Ord) =
      ( v.Fits) := rfl
theorem Ord_Fitss_nil :
    Ord.Fitss ([] : List Ord) =
      ( True) := rfl
theorem Ord_Fitss_cons (x) (xs) :
    Ord.Fitss (x :: xs : List Ord) =
      ( x.Fits ∧ Ord.Fitss xs) := rfl
theorem Bound_Fits_bounded (u1_) (e) :
    Bound.Fits (.bounded u1_ e : Bound) =
      ( e.Fits) := rfl
theorem Bound_Fits_unbounded (u1_) :
    Bound.Fits (.unbounded u1_ : Bound) =
      ( True) := rfl
theorem Bound_Fits_current :
    Bound.Fits (.current : Bound) =
      ( True) := rfl
theorem Win_Fits_mk (p) (ob) (ps) (u1_) (st) (en) :
    Win.Fits (.mk p ob ps u1_ st en : Win) =
      ( IfAny FreeWord (truthy p) ∧ Ord.Fitss ob ∧ Expr.Fitss ps ∧ st.Fits ∧ en.Fits) := rfl
theorem Grp_Fits_set (vs) :
    Grp.Fits (.set vs : Grp) =
      ( Expr.Fitss vs ∧ Expr.OneFits vs) := rfl
theorem Grp_Fits_sets (gs) :
    Grp.Fits (.sets gs : Grp) =
      ( gs ≠ [] ∧ Expr.FitsLists gs) := rfl
theorem Grp_Fits_cube (vs) :
    Grp.Fits (.cube vs : Grp) =
      ( Expr.Fitss vs) := rfl
theorem Grp_Fits_rollup (vs) :
    Grp.Fits (.rollup vs : Grp) =
      ( Expr.Fitss vs) := rfl
theorem Grp_Fitss_nil :
    Grp.Fitss ([] : List Grp) =
      ( True) := rfl
theorem Grp_Fitss_cons (g) (gs) :
    Grp.Fitss (g :: gs : List Grp) =
      ( g.Fits ∧ Grp.Fitss gs) := rfl
theorem GroupBy_Fits_mk (gs) (u1_) :
    GroupBy.Fits (.mk gs u1_ : GroupBy) =
      ( Grp.Fitss gs) := rfl
theorem Query_Fits_mk (b) (u1_) (u2_) (ob) (w) :
    Query.Fits (.mk b u1_ u2_ ob w : Query) =
      ( b.Fits ∧ Ord.Fitss ob ∧ Named.Fitss w) := rfl
theorem QBody_Fits_select (items) (fr) (wh) (gb) (hv) (u1_) (wins) :
    QBody.Fits (.select items fr wh gb hv u1_ wins : QBody) =
      ( Expr.Fitss items ∧ Rel.FitsOpt fr ∧ Expr.FitsOpt wh ∧ GroupBy.FitsOpt gb ∧ Expr.FitsOpt hv ∧ Win.FitsNamed wins ∧ (wins.map Prod.fst).Nodup) := rfl
theorem QBody_Fits_set (u1_) (u2_) (u3_) (u4_) :
    QBody.Fits (.set u1_ u2_ u3_ u4_ : QBody) =
      ( False) := rfl
theorem QBody_Fits_table (t) :
    QBody.Fits (.table t : QBody) =
      ( TableFits t) := rfl
theorem QBody_Fits_values (es) :
    QBody.Fits (.values es : QBody) =
      ( Expr.Fitss es) := rfl
theorem Win_FitsNamed_nil :
    Win.FitsNamed ([] : List (Str × Win)) =
      ( True) := rfl
theorem Win_FitsNamed_cons (n) (w) (ws) :
    Win.FitsNamed ((n, w) :: ws : List (Str × Win)) =
      ( FreeWord n ∧ w.Fits ∧ Win.FitsNamed ws) := rfl
theorem Named_Fits_mk (r) (u1_) (cols) :
    Named.Fits (.mk r u1_ cols : Named) =
      ( r.Fits ∧ 3 ≤ relLevel r ∧ ∀ n ∈ cols, FreeWord n) := rfl
theorem Named_FitsWith_mk (r) (u1_) (u2_) :
    Named.FitsWith (.mk r u1_ u2_ : Named) =
      ( r.Fits) := rfl
theorem Named_Fitss_nil :
    Named.Fitss ([] : List Named) =
      ( True) := rfl
theorem Named_Fitss_cons (n) (ns) :
    Named.Fitss (n :: ns : List Named) =
      ( n.FitsWith ∧ Named.Fitss ns) := rfl
theorem Rel_Fits_table (t) :
    Rel.Fits (.table t : Rel) =
      ( TableFits t) := rfl
theorem Rel_Fits_query (q) :
    Rel.Fits (.query q : Rel) =
      ( q.Fits) := rfl
theorem Rel_Fits_aliased (n) :
    Rel.Fits (.aliased n : Rel) =
      ( n.Fits) := rfl
theorem Rel_Fits_join (l) (r) (u1_) (u2_) (cr) :
    Rel.Fits (.join l r u1_ u2_ cr : Rel) =
      ( l.Fits ∧ r.Fits ∧ Crit.FitsOpt cr ∧ (cr.isSome = false → 1 ≤ relLevel r)) := rfl
theorem Rel_Fits_unnest (as) (u1_) :
    Rel.Fits (.unnest as u1_ : Rel) =
      ( Expr.Fitss as ∧ as ≠ []) := rfl
theorem Rel_Fits_lateral (q) :
    Rel.Fits (.lateral q : Rel) =
      ( q.Fits) := rfl
theorem Rel_Fits_sample (r) (u1_) (p) :
    Rel.Fits (.sample r u1_ p : Rel) =
      ( r.Fits ∧ p.Fits ∧ relLevel r ≠ 1) := rfl
theorem Crit_Fits_using (cols) :
    Crit.Fits (.using cols : Crit) =
      ( ∀ n ∈ cols, FreeWord n) := rfl
theorem Crit_Fits_on (e) :
    Crit.Fits (.on e : Crit) =
      ( e.Fits) := rfl

end Treeno
