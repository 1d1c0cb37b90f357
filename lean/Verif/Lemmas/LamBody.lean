import Verif.Lemmas.BodyEqs
import Verif.Lemmas.WalkEqs
import Verif.Lemmas.CheckEqs
import Verif.Schema
/-!
# Binding the names of a lambda expression

For a body without subqueries the traversal of `Lambda.from_generic_expr` succeeds, replaces the columns
named by the inputs, and changes no type.
-/
set_option maxHeartbeats 1600000
namespace Treeno
open Spec

mutual
theorem lb_expr (is : List Str) : ∀ (e : Expr), e.Body →
    walkExpr (lambdaLeaf is) evolveTable e = .ok (bind is e) ∧ (bind is e).check = e.check ∧ (bind is e).isStar = e.isStar
  | .lit v t, _ => ⟨rfl, rfl, rfl⟩
  | .field n tn t, h => by
    cases tn with
    | some m => exact ⟨rfl, rfl, rfl⟩
    | none =>
      cases (show t = .unknown from h)
      by_cases hn : n ∈ is
      · have h1 : bind is (.field n none .unknown) = .var n := if_pos hn
        rw [h1]
        refine ⟨?_, rfl, rfl⟩
        rw [walkExpr_field]
        unfold lambdaLeaf
        simp [hn]
      · have h1 : bind is (.field n none .unknown) = .field n none .unknown := if_neg hn
        rw [h1]
        refine ⟨?_, rfl, rfl⟩
        rw [walkExpr_field]
        unfold lambdaLeaf
        simp [hn]
  | .fieldOf _ _ _, h => h.elim
  | .alias _ _, h => h.elim
  | .star tn t, _ => ⟨rfl, rfl, rfl⟩
  | .starOf _ _, h => h.elim
  | .aliasedStar _ _, h => h.elim
  | .var n, _ => ⟨rfl, rfl, rfl⟩
  | .lam ins b, h => by
    rw [Expr_Body_lam] at h
    have hb := lb_expr is b h
    refine ⟨?_, ?_, rfl⟩
    · rw [walkExpr_lam, hb.1]
      rfl
    · show Expr.check (.lam ins (bind is b)) = _
      rw [Expr_check_lam, Expr_check_lam, hb.2.1]
  | .un op v, h => by
    rw [Expr_Body_un] at h
    have hv := lb_expr is v h
    refine ⟨?_, ?_, rfl⟩
    · rw [walkExpr_un, hv.1]
      rfl
    · show Expr.check (.un op (bind is v)) = _
      rw [Expr_check_un, Expr_check_un, hv.2.1]
  | .bin op l r, h => by
    rw [Expr_Body_bin] at h
    have hl := lb_expr is l h.1
    have hr := lb_expr is r h.2
    refine ⟨?_, ?_, rfl⟩
    · rw [walkExpr_bin, hl.1, hr.1]
      rfl
    · show Expr.check (.bin op (bind is l) (bind is r)) = _
      rw [Expr_check_bin, Expr_check_bin, hl.2.1, hr.2.1]
  | .not v, h => by
    rw [Expr_Body_not] at h
    have hv := lb_expr is v h
    refine ⟨?_, ?_, rfl⟩
    · rw [walkExpr_not, hv.1]
      rfl
    · show Expr.check (.not (bind is v)) = _
      rw [Expr_check_not, Expr_check_not, hv.2.1]
  | .isNull v, h => by
    rw [Expr_Body_isNull] at h
    have hv := lb_expr is v h
    refine ⟨?_, ?_, rfl⟩
    · rw [walkExpr_isNull, hv.1]
      rfl
    · show Expr.check (.isNull (bind is v)) = _
      rw [Expr_check_isNull, Expr_check_isNull, hv.2.1]
  | .between v l u, h => by
    rw [Expr_Body_between] at h
    have hv := lb_expr is v h.1
    have hl := lb_expr is l h.2.1
    have hu := lb_expr is u h.2.2
    refine ⟨?_, ?_, rfl⟩
    · rw [walkExpr_between, hv.1, hl.1, hu.1]
      rfl
    · show Expr.check (.between (bind is v) (bind is l) (bind is u)) = _
      rw [Expr_check_between, Expr_check_between, hv.2.1, hl.2.1, hu.2.1]
  | .array vs, h => by
    rw [Expr_Body_array] at h
    have hvs := lb_exprs is vs h
    refine ⟨?_, ?_, rfl⟩
    · rw [walkExpr_array, hvs.1]
      rfl
    · show Expr.check (.array (mapExprs (bindNode is) id vs)) = _
      rw [Expr_check_array, Expr_check_array, hvs.2.1]
  | .inQuery _ _, h => h.elim
  | .inList v es, h => by
    rw [Expr_Body_inList] at h
    have hv := lb_expr is v h.1
    have hes := lb_exprs is es h.2
    refine ⟨?_, ?_, rfl⟩
    · rw [walkExpr_inList, hv.1, hes.1]
      rfl
    · show Expr.check (.inList (bind is v) (mapExprs (bindNode is) id es)) = _
      rw [Expr_check_inList, Expr_check_inList, hv.2.1, hes.2.1]
  | .like v p e, h => by
    rw [Expr_Body_like] at h
    have hv := lb_expr is v h.1
    have hp := lb_expr is p h.2.1
    have he := lb_opt is e h.2.2
    refine ⟨?_, ?_, rfl⟩
    · rw [walkExpr_like, hv.1, hp.1, he.1]
      rfl
    · show Expr.check (.like (bind is v) (bind is p) (mapExprOpt (bindNode is) id e)) = _
      rw [Expr_check_like, Expr_check_like, hv.2.1, hp.2.1, he.2]
  | .typeCtor v t, _ => ⟨rfl, rfl, rfl⟩
  | .row vs, h => by
    rw [Expr_Body_row] at h
    have hvs := lb_exprs is vs h
    refine ⟨?_, ?_, rfl⟩
    · rw [walkExpr_row, hvs.1]
      rfl
    · show Expr.check (.row (mapExprs (bindNode is) id vs)) = _
      rw [Expr_check_row, Expr_check_row, hvs.2.1]
  | .interval v f t, _ => ⟨rfl, rfl, rfl⟩
  | .cast tr e t, h => by
    rw [Expr_Body_cast] at h
    have he := lb_expr is e h
    refine ⟨?_, ?_, rfl⟩
    · rw [walkExpr_cast, he.1]
      rfl
    · show Expr.check (.cast tr (bind is e) t) = _
      rw [Expr_check_cast, Expr_check_cast, he.2.1]
  | .subscript v i, h => by
    rw [Expr_Body_subscript] at h
    have hv := lb_expr is v h.1
    have hi := lb_expr is i h.2
    refine ⟨?_, ?_, rfl⟩
    · rw [walkExpr_subscript, hv.1, hi.1]
      rfl
    · show Expr.check (.subscript (bind is v) (bind is i)) = _
      rw [Expr_check_subscript, Expr_check_subscript, hv.2.1, hi.2.1]
  | .case v bs e, h => by
    rw [Expr_Body_case] at h
    have hv := lb_opt is v h.1
    have hbs := lb_whens is bs h.2.1
    have he := lb_opt is e h.2.2
    refine ⟨?_, ?_, rfl⟩
    · rw [walkExpr_case, hv.1, hbs.1, he.1]
      rfl
    · show Expr.check (.case (mapExprOpt (bindNode is) id v) (mapWhens (bindNode is) id bs) (mapExprOpt (bindNode is) id e)) = _
      rw [Expr_check_case, Expr_check_case, hv.2, hbs.2, he.2]
  | .func f as, h => by
    rw [Expr_Body_func] at h
    have has := lb_exprs is as h
    refine ⟨?_, ?_, rfl⟩
    · rw [walkExpr_func, has.1]
      rfl
    · show Expr.check (.func f (mapExprs (bindNode is) id as)) = _
      rw [Expr_check_func, Expr_check_func, has.2.1]
  | .agg f as ob fl w ign, h => by
    rw [Expr_Body_agg] at h
    have has := lb_exprs is as h.1
    have hob := lb_ords is ob h.2.1
    have hfl := lb_opt is fl h.2.2.1
    have hw := lb_wopt is w h.2.2.2
    refine ⟨?_, ?_, rfl⟩
    · rw [walkExpr_agg, has.1, hob.1, hfl.1, hw.1]
      rfl
    · show Expr.check (.agg f (mapExprs (bindNode is) id as) (mapOrds (bindNode is) id ob) (mapExprOpt (bindNode is) id fl) (mapWinOpt (bindNode is) id w) ign) = _
      have hstar : countStarBad f (mapExprs (bindNode is) id as) (mapOrds (bindNode is) id ob) ign = countStarBad f as ob ign := by
        unfold countStarBad
        rw [has.2.2, hob.2.2]
      rw [Expr_check_agg, Expr_check_agg, has.2.1, hob.2.1, hfl.2, hw.2, hstar]
  | .listagg v sep ov ob, h => by
    rw [Expr_Body_listagg] at h
    have hv := lb_expr is v h.1
    have hob := lb_ords is ob h.2
    refine ⟨?_, ?_, rfl⟩
    · rw [walkExpr_listagg, hv.1, hob.1]
      rfl
    · show Expr.check (.listagg (bind is v) sep ov (mapOrds (bindNode is) id ob)) = _
      rw [Expr_check_listagg, Expr_check_listagg, hv.2.1, hob.2.1, hob.2.2]
  | .curTime f p, _ => ⟨rfl, rfl, rfl⟩
  | .session f, _ => ⟨rfl, rfl, rfl⟩
  | .normalize v fo, h => by
    rw [Expr_Body_normalize] at h
    have hv := lb_expr is v h
    refine ⟨?_, ?_, rfl⟩
    · rw [walkExpr_normalize, hv.1]
      rfl
    · show Expr.check (.normalize (bind is v) fo) = _
      rw [Expr_check_normalize, Expr_check_normalize, hv.2.1]
  | .query _, h => h.elim
theorem lb_opt (is : List Str) : ∀ (e : Option Expr), Expr.BodyOpt e →
    walkExprOpt (lambdaLeaf is) evolveTable e = .ok (mapExprOpt (bindNode is) id e) ∧ Expr.checkOpt (mapExprOpt (bindNode is) id e) = Expr.checkOpt e
  | none, _ => ⟨rfl, rfl⟩
  | some e, h => by
    rw [Expr_BodyOpt_some] at h
    have he := lb_expr is e h
    refine ⟨?_, ?_⟩
    · rw [walkExprOpt_some, he.1]; rfl
    · show Expr.checkOpt (some (bind is e)) = _
      rw [Expr_checkOpt_some, Expr_checkOpt_some, he.2.1]
theorem lb_wopt (is : List Str) : ∀ (w : Option Win), Win.BodyOpt w →
    walkWinOpt (lambdaLeaf is) evolveTable w = .ok (mapWinOpt (bindNode is) id w) ∧ Win.checkOpt (mapWinOpt (bindNode is) id w) = Win.checkOpt w
  | none, _ => ⟨rfl, rfl⟩
  | some w, h => by
    rw [Win_BodyOpt_some] at h
    have hw := lb_win is w h
    refine ⟨?_, ?_⟩
    · rw [walkWinOpt_some, hw.1]; rfl
    · show Win.checkOpt (some (mapWin (bindNode is) id w)) = _
      rw [Win_checkOpt_some, Win_checkOpt_some, hw.2]
theorem lb_exprs (is : List Str) : ∀ (es : List Expr), Expr.Bodys es →
    walkExprs (lambdaLeaf is) evolveTable es = .ok (mapExprs (bindNode is) id es) ∧ Expr.checks (mapExprs (bindNode is) id es) = Expr.checks es ∧
      (mapExprs (bindNode is) id es).any Expr.isStar = es.any Expr.isStar
  | [], _ => ⟨rfl, rfl, rfl⟩
  | e :: es, h => by
    rw [Expr_Bodys_cons] at h
    have he := lb_expr is e h.1
    have hes := lb_exprs is es h.2
    refine ⟨?_, ?_, ?_⟩
    · rw [walkExprs_cons, he.1, hes.1]; rfl
    · show Expr.checks (bind is e :: mapExprs (bindNode is) id es) = _
      rw [Expr_checks_cons, Expr_checks_cons, he.2.1, hes.2.1]
    · show (bind is e :: mapExprs (bindNode is) id es).any Expr.isStar = _
      rw [List.any_cons, List.any_cons, he.2.2, hes.2.2]
theorem lb_whens (is : List Str) : ∀ (bs : List (Expr × Expr)), Expr.BodyWhens bs →
    walkWhens (lambdaLeaf is) evolveTable bs = .ok (mapWhens (bindNode is) id bs) ∧ Expr.checkWhens (mapWhens (bindNode is) id bs) = Expr.checkWhens bs
  | [], _ => ⟨rfl, rfl⟩
  | (c, v) :: bs, h => by
    rw [Expr_BodyWhens_cons] at h
    have hc := lb_expr is c h.1
    have hv := lb_expr is v h.2.1
    have hbs := lb_whens is bs h.2.2
    refine ⟨?_, ?_⟩
    · rw [walkWhens_cons, hc.1, hv.1, hbs.1]; rfl
    · show Expr.checkWhens ((bind is c, bind is v) :: mapWhens (bindNode is) id bs) = _
      rw [Expr_checkWhens_cons, Expr_checkWhens_cons, hc.2.1, hv.2.1, hbs.2]
theorem lb_ords (is : List Str) : ∀ (os : List Ord), Ord.Bodys os →
    walkOrds (lambdaLeaf is) evolveTable os = .ok (mapOrds (bindNode is) id os) ∧ Ord.checks (mapOrds (bindNode is) id os) = Ord.checks os ∧
      (mapOrds (bindNode is) id os).isEmpty = os.isEmpty
  | [], _ => ⟨rfl, rfl, rfl⟩
  | .mk v d nf :: os, h => by
    rw [Ord_Bodys_cons] at h
    have hv := lb_expr is v h.1
    have hos := lb_ords is os h.2
    refine ⟨?_, ?_, rfl⟩
    · rw [walkOrds_cons, walkOrd_mk, hv.1, hos.1]; rfl
    · show Ord.checks (.mk (bind is v) d nf :: mapOrds (bindNode is) id os) = _
      rw [Ord_checks_cons, Ord_checks_cons, hv.2.1, hos.2.1]
theorem lb_bound (is : List Str) : ∀ (b : Bound), b.Body →
    walkBound (lambdaLeaf is) evolveTable b = .ok (mapBound (bindNode is) id b) ∧ (mapBound (bindNode is) id b).check = b.check
  | .bounded t e, h => by
    rw [Bound_Body_bounded] at h
    have he := lb_expr is e h
    refine ⟨?_, ?_⟩
    · rw [walkBound_bounded, he.1]; rfl
    · show Bound.check (.bounded t (bind is e)) = _
      rw [Bound_check_bounded, Bound_check_bounded, he.2.1]
  | .unbounded _, _ => ⟨rfl, rfl⟩
  | .current, _ => ⟨rfl, rfl⟩
theorem lb_win (is : List Str) : ∀ (w : Win), w.Body →
    walkWin (lambdaLeaf is) evolveTable w = .ok (mapWin (bindNode is) id w) ∧ (mapWin (bindNode is) id w).check = w.check
  | .mk p ob ps f st en, h => by
    rw [Win_Body_mk] at h
    have ho := lb_ords is ob h.1
    have hp := lb_exprs is ps h.2.1
    have hs := lb_bound is st h.2.2.1
    have he := lb_bound is en h.2.2.2
    refine ⟨?_, ?_⟩
    · rw [walkWin_mk, ho.1, hp.1, hs.1, he.1]; rfl
    · show Win.check (.mk p (mapOrds (bindNode is) id ob) (mapExprs (bindNode is) id ps) f (mapBound (bindNode is) id st) (mapBound (bindNode is) id en)) = _
      rw [Win_check_mk, Win_check_mk, ho.2.1, hp.2.1, hs.2, he.2]
end

/-- Creating the lambda expression. -/
theorem lambdaOf_eq {is : List Str} {e : Expr} (h : e.Body) : lambdaOf is e = (Expr.lam is (bind is e)).build := by
  unfold lambdaOf
  rw [(lb_expr is e h).1]
  rfl

end Treeno
