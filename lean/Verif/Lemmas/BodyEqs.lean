import Verif.Spec.Fits
/-!
# Equation lemmas of the functions in `Verif/Spec/Fits.lean`, one per match arm (all by `rfl`)
-/
set_option linter.unusedVariables false
namespace Treeno
open Spec

theorem Expr_Body_lit (u1_) (u2_) :
    Expr.Body (.lit u1_ u2_ : Expr) =
      ( True) := rfl
theorem Expr_Body_field (u1_) (u2_) (t) :
    Expr.Body (.field u1_ u2_ t : Expr) =
      ( t = .unknown) := rfl
theorem Expr_Body_fieldOf (u1_) (u2_) (u3_) :
    Expr.Body (.fieldOf u1_ u2_ u3_ : Expr) =
      ( False) := rfl
theorem Expr_Body_alias (u1_) (u2_) :
    Expr.Body (.alias u1_ u2_ : Expr) =
      ( False) := rfl
theorem Expr_Body_star (u1_) (u2_) :
    Expr.Body (.star u1_ u2_ : Expr) =
      ( True) := rfl
theorem Expr_Body_starOf (u1_) (u2_) :
    Expr.Body (.starOf u1_ u2_ : Expr) =
      ( False) := rfl
theorem Expr_Body_aliasedStar (u1_) (u2_) :
    Expr.Body (.aliasedStar u1_ u2_ : Expr) =
      ( False) := rfl
theorem Expr_Body_var (u1_) :
    Expr.Body (.var u1_ : Expr) =
      ( True) := rfl
theorem Expr_Body_lam (u1_) (b) :
    Expr.Body (.lam u1_ b : Expr) =
      ( b.Body) := rfl
theorem Expr_Body_un (u1_) (v) :
    Expr.Body (.un u1_ v : Expr) =
      ( v.Body) := rfl
theorem Expr_Body_bin (u1_) (l) (r) :
    Expr.Body (.bin u1_ l r : Expr) =
      ( l.Body ∧ r.Body) := rfl
theorem Expr_Body_not (v) :
    Expr.Body (.not v : Expr) =
      ( v.Body) := rfl
theorem Expr_Body_isNull (v) :
    Expr.Body (.isNull v : Expr) =
      ( v.Body) := rfl
theorem Expr_Body_between (v) (l) (u) :
    Expr.Body (.between v l u : Expr) =
      ( v.Body ∧ l.Body ∧ u.Body) := rfl
theorem Expr_Body_array (vs) :
    Expr.Body (.array vs : Expr) =
      ( Expr.Bodys vs) := rfl
theorem Expr_Body_inQuery (u1_) (u2_) :
    Expr.Body (.inQuery u1_ u2_ : Expr) =
      ( False) := rfl
theorem Expr_Body_inList (v) (es) :
    Expr.Body (.inList v es : Expr) =
      ( v.Body ∧ Expr.Bodys es) := rfl
theorem Expr_Body_like (v) (p) (e) :
    Expr.Body (.like v p e : Expr) =
      ( v.Body ∧ p.Body ∧ Expr.BodyOpt e) := rfl
theorem Expr_Body_typeCtor (u1_) (u2_) :
    Expr.Body (.typeCtor u1_ u2_ : Expr) =
      ( True) := rfl
theorem Expr_Body_row (vs) :
    Expr.Body (.row vs : Expr) =
      ( Expr.Bodys vs) := rfl
theorem Expr_Body_interval (u1_) (u2_) (u3_) :
    Expr.Body (.interval u1_ u2_ u3_ : Expr) =
      ( True) := rfl
theorem Expr_Body_cast (u1_) (e) (u2_) :
    Expr.Body (.cast u1_ e u2_ : Expr) =
      ( e.Body) := rfl
theorem Expr_Body_subscript (v) (i) :
    Expr.Body (.subscript v i : Expr) =
      ( v.Body ∧ i.Body) := rfl
theorem Expr_Body_case (v) (bs) (e) :
    Expr.Body (.case v bs e : Expr) =
      ( Expr.BodyOpt v ∧ Expr.BodyWhens bs ∧ Expr.BodyOpt e) := rfl
theorem Expr_Body_func (u1_) (as) :
    Expr.Body (.func u1_ as : Expr) =
      ( Expr.Bodys as) := rfl
theorem Expr_Body_agg (u1_) (as) (ob) (fl) (w) (u2_) :
    Expr.Body (.agg u1_ as ob fl w u2_ : Expr) =
      ( Expr.Bodys as ∧ Ord.Bodys ob ∧ Expr.BodyOpt fl ∧ Win.BodyOpt w) := rfl
theorem Expr_Body_listagg (v) (u1_) (u2_) (ob) :
    Expr.Body (.listagg v u1_ u2_ ob : Expr) =
      ( v.Body ∧ Ord.Bodys ob) := rfl
theorem Expr_Body_curTime (u1_) (u2_) :
    Expr.Body (.curTime u1_ u2_ : Expr) =
      ( True) := rfl
theorem Expr_Body_session (u1_) :
    Expr.Body (.session u1_ : Expr) =
      ( True) := rfl
theorem Expr_Body_normalize (v) (u1_) :
    Expr.Body (.normalize v u1_ : Expr) =
      ( v.Body) := rfl
theorem Expr_Body_query (u1_) :
    Expr.Body (.query u1_ : Expr) =
      ( False) := rfl
theorem Expr_BodyOpt_none :
    Expr.BodyOpt (none : Option Expr) =
      ( True) := rfl
theorem Expr_BodyOpt_some (e) :
    Expr.BodyOpt (some e : Option Expr) =
      ( e.Body) := rfl
theorem Win_BodyOpt_none :
    Win.BodyOpt (none : Option Win) =
      ( True) := rfl
theorem Win_BodyOpt_some (w) :
    Win.BodyOpt (some w : Option Win) =
      ( w.Body) := rfl
theorem Expr_Bodys_nil :
    Expr.Bodys ([] : List Expr) =
      ( True) := rfl
theorem Expr_Bodys_cons (e) (es) :
    Expr.Bodys (e :: es : List Expr) =
      ( e.Body ∧ Expr.Bodys es) := rfl
theorem Expr_BodyWhens_nil :
    Expr.BodyWhens ([] : List (Expr × Expr)) =
      ( True) := rfl
theorem Expr_BodyWhens_cons (c) (v) (bs) :
    Expr.BodyWhens ((c, v) :: bs : List (Expr × Expr)) =
      ( c.Body ∧ v.Body ∧ Expr.BodyWhens bs) := rfl
theorem Ord_Bodys_nil :
    Ord.Bodys ([] : List Ord) =
      ( True) := rfl
theorem Ord_Bodys_cons (v) (u1_) (u2_) (xs) :
    Ord.Bodys (.mk v u1_ u2_ :: xs : List Ord) =
      ( v.Body ∧ Ord.Bodys xs) := rfl
theorem Bound_Body_bounded (u1_) (e) :
    Bound.Body (.bounded u1_ e : Bound) =
      ( e.Body) := rfl
theorem Bound_Body_unbounded (u1_) :
    Bound.Body (.unbounded u1_ : Bound) =
      ( True) := rfl
theorem Bound_Body_current :
    Bound.Body (.current : Bound) =
      ( True) := rfl
theorem Win_Body_mk (u1_) (ob) (ps) (u2_) (st) (en) :
    Win.Body (.mk u1_ ob ps u2_ st en : Win) =
      ( Ord.Bodys ob ∧ Expr.Bodys ps ∧ st.Body ∧ en.Body) := rfl

end Treeno
