import Verif.Lemmas.MeanEqs
import Verif.Spec.TreeMap
/-!
# Changes of nodes that keep their meaning keep the meaning of the tree
-/
namespace Treeno
open Spec

section
variable {M : Model} {g : Expr → Expr} {tg : TableRef → TableRef} (hg : ∀ e, (g e).mean M = e.mean M)
  (htg : ∀ t, (tableMeaning (tg t) : M.D) = tableMeaning t)
include hg htg

mutual
theorem mm_Expr : ∀ (x : Expr), Expr.mean M (mapExpr g tg x) = Expr.mean M x
  | .lit v t => by
    show Expr.mean M (g (.lit v t)) = _
    exact hg _
  | .field n tn t => by
    show Expr.mean M (g (.field n tn t)) = _
    exact hg _
  | .fieldOf n b t => by
    show Expr.mean M (g (.fieldOf n (mapExpr g tg b) t)) = _
    rw [hg]
    rw [Expr_mean_fieldOf, Expr_mean_fieldOf, mm_Expr b]
  | .alias v n => by
    show Expr.mean M (g (.alias (mapExpr g tg v) n)) = _
    rw [hg]
    rw [Expr_mean_alias, Expr_mean_alias, mm_Expr v]
  | .star tn t => by
    show Expr.mean M (g (.star tn t)) = _
    exact hg _
  | .starOf b t => by
    show Expr.mean M (g (.starOf (mapExpr g tg b) t)) = _
    rw [hg]
    rw [Expr_mean_starOf, Expr_mean_starOf, mm_Expr b]
  | .aliasedStar s as => by
    show Expr.mean M (g (.aliasedStar (mapExpr g tg s) as)) = _
    rw [hg]
    rw [Expr_mean_aliasedStar, Expr_mean_aliasedStar, mm_Expr s]
  | .var n => by
    show Expr.mean M (g (.var n)) = _
    exact hg _
  | .lam ins b => by
    show Expr.mean M (g (.lam ins (mapExpr g tg b))) = _
    rw [hg]
    rw [Expr_mean_lam, Expr_mean_lam, mm_Expr b]
  | .un op v => by
    show Expr.mean M (g (.un op (mapExpr g tg v))) = _
    rw [hg]
    rw [Expr_mean_un, Expr_mean_un, mm_Expr v]
  | .bin op l r => by
    show Expr.mean M (g (.bin op (mapExpr g tg l) (mapExpr g tg r))) = _
    rw [hg]
    rw [Expr_mean_bin, Expr_mean_bin, mm_Expr l, mm_Expr r]
  | .not v => by
    show Expr.mean M (g (.not (mapExpr g tg v))) = _
    rw [hg]
    rw [Expr_mean_not, Expr_mean_not, mm_Expr v]
  | .isNull v => by
    show Expr.mean M (g (.isNull (mapExpr g tg v))) = _
    rw [hg]
    rw [Expr_mean_isNull, Expr_mean_isNull, mm_Expr v]
  | .between v l u => by
    show Expr.mean M (g (.between (mapExpr g tg v) (mapExpr g tg l) (mapExpr g tg u))) = _
    rw [hg]
    rw [Expr_mean_between, Expr_mean_between, mm_Expr v, mm_Expr l, mm_Expr u]
  | .array vs => by
    show Expr.mean M (g (.array (mapExprs g tg vs))) = _
    rw [hg]
    rw [Expr_mean_array, Expr_mean_array, mm_Exprs vs]
  | .inQuery v q => by
    show Expr.mean M (g (.inQuery (mapExpr g tg v) (mapQuery g tg q))) = _
    rw [hg]
    rw [Expr_mean_inQuery, Expr_mean_inQuery, mm_Expr v, mm_Query q]
  | .inList v es => by
    show Expr.mean M (g (.inList (mapExpr g tg v) (mapExprs g tg es))) = _
    rw [hg]
    rw [Expr_mean_inList, Expr_mean_inList, mm_Expr v, mm_Exprs es]
  | .like v p e => by
    show Expr.mean M (g (.like (mapExpr g tg v) (mapExpr g tg p) (mapExprOpt g tg e))) = _
    rw [hg]
    rw [Expr_mean_like, Expr_mean_like, mm_Expr v, mm_Expr p, mm_ExprOpt e]
  | .typeCtor v t => by
    show Expr.mean M (g (.typeCtor v t)) = _
    exact hg _
  | .row vs => by
    show Expr.mean M (g (.row (mapExprs g tg vs))) = _
    rw [hg]
    rw [Expr_mean_row, Expr_mean_row, mm_Exprs vs]
  | .interval v f t => by
    show Expr.mean M (g (.interval v f t)) = _
    exact hg _
  | .cast tr e t => by
    show Expr.mean M (g (.cast tr (mapExpr g tg e) t)) = _
    rw [hg]
    rw [Expr_mean_cast, Expr_mean_cast, mm_Expr e]
  | .subscript v i => by
    show Expr.mean M (g (.subscript (mapExpr g tg v) (mapExpr g tg i))) = _
    rw [hg]
    rw [Expr_mean_subscript, Expr_mean_subscript, mm_Expr v, mm_Expr i]
  | .case v bs e => by
    show Expr.mean M (g (.case (mapExprOpt g tg v) (mapWhens g tg bs) (mapExprOpt g tg e))) = _
    rw [hg]
    rw [Expr_mean_case, Expr_mean_case, mm_ExprOpt v, mm_Whens bs, mm_ExprOpt e]
  | .func f as => by
    show Expr.mean M (g (.func f (mapExprs g tg as))) = _
    rw [hg]
    rw [Expr_mean_func, Expr_mean_func, mm_Exprs as]
  | .agg f as ob fl w ign => by
    show Expr.mean M (g (.agg f (mapExprs g tg as) (mapOrds g tg ob) (mapExprOpt g tg fl) (mapWinOpt g tg w) ign)) = _
    rw [hg]
    rw [Expr_mean_agg, Expr_mean_agg, mm_Exprs as, mm_Ords ob, mm_ExprOpt fl, mm_WinOpt w]
  | .listagg v sep ov ob => by
    show Expr.mean M (g (.listagg (mapExpr g tg v) sep ov (mapOrds g tg ob))) = _
    rw [hg]
    rw [Expr_mean_listagg, Expr_mean_listagg, mm_Expr v, mm_Ords ob]
  | .curTime f p => by
    show Expr.mean M (g (.curTime f p)) = _
    exact hg _
  | .session f => by
    show Expr.mean M (g (.session f)) = _
    exact hg _
  | .normalize v fo => by
    show Expr.mean M (g (.normalize (mapExpr g tg v) fo)) = _
    rw [hg]
    rw [Expr_mean_normalize, Expr_mean_normalize, mm_Expr v]
  | .query q => by
    show Expr.mean M (g (.query (mapQuery g tg q))) = _
    rw [hg]
    rw [Expr_mean_query, Expr_mean_query, mm_Query q]
theorem mm_Ord : ∀ (x : Ord), Ord.mean M (mapOrd g tg x) = Ord.mean M x
  | .mk v d nf => by
    show Ord.mean M (.mk (mapExpr g tg v) d nf) = _
    rw [Ord_mean_mk, Ord_mean_mk, mm_Expr v]
theorem mm_Bound : ∀ (x : Bound), Bound.mean M (mapBound g tg x) = Bound.mean M x
  | .bounded t e => by
    show Bound.mean M (.bounded t (mapExpr g tg e)) = _
    rw [Bound_mean_bounded, Bound_mean_bounded, mm_Expr e]
  | .unbounded t => rfl
  | .current => rfl
theorem mm_Win : ∀ (x : Win), Win.mean M (mapWin g tg x) = Win.mean M x
  | .mk p ob ps f st en => by
    show Win.mean M (.mk p (mapOrds g tg ob) (mapExprs g tg ps) f (mapBound g tg st) (mapBound g tg en)) = _
    rw [Win_mean_mk, Win_mean_mk, mm_Ords ob, mm_Exprs ps, mm_Bound st, mm_Bound en]
theorem mm_Grp : ∀ (x : Grp), Grp.mean M (mapGrp g tg x) = Grp.mean M x
  | .set vs => by
    show Grp.mean M (.set (mapExprs g tg vs)) = _
    rw [Grp_mean_set, Grp_mean_set, mm_Exprs vs]
  | .sets gs => by
    show Grp.mean M (.sets (mapLists g tg gs)) = _
    rw [Grp_mean_sets, Grp_mean_sets, mm_Lists gs]
  | .cube vs => by
    show Grp.mean M (.cube (mapExprs g tg vs)) = _
    rw [Grp_mean_cube, Grp_mean_cube, mm_Exprs vs]
  | .rollup vs => by
    show Grp.mean M (.rollup (mapExprs g tg vs)) = _
    rw [Grp_mean_rollup, Grp_mean_rollup, mm_Exprs vs]
theorem mm_GroupBy : ∀ (x : GroupBy), GroupBy.mean M (mapGroupBy g tg x) = GroupBy.mean M x
  | .mk gs d => by
    show GroupBy.mean M (.mk (mapGrps g tg gs) d) = _
    rw [GroupBy_mean_mk, GroupBy_mean_mk, mm_Grps gs]
theorem mm_Query : ∀ (x : Query), Query.mean M (mapQuery g tg x) = Query.mean M x
  | .mk b off lim ob w => by
    show Query.mean M (.mk (mapQBody g tg b) off lim (mapOrds g tg ob) (mapNameds g tg w)) = _
    rw [Query_mean_mk, Query_mean_mk, mm_QBody b, mm_Ords ob, mm_Nameds w]
theorem mm_QBody : ∀ (x : QBody), QBody.mean M (mapQBody g tg x) = QBody.mean M x
  | .select items fr wh gb hv d wins => by
    show QBody.mean M (.select (mapExprs g tg items) (mapRelOpt g tg fr) (mapExprOpt g tg wh) (mapGroupByOpt g tg gb) (mapExprOpt g tg hv) d (mapNamedWins g tg wins)) = _
    rw [QBody_mean_select, QBody_mean_select, mm_Exprs items, mm_RelOpt fr, mm_ExprOpt wh, mm_GroupByOpt gb, mm_ExprOpt hv, mm_NamedWins wins]
  | .set k l r d => by
    show QBody.mean M (.set k (mapQuery g tg l) (mapQuery g tg r) d) = _
    rw [QBody_mean_set, QBody_mean_set, mm_Query l, mm_Query r]
  | .table t => by
    show QBody.mean M (.table (tg t)) = _
    rw [QBody_mean_table, QBody_mean_table, htg t]
  | .values es => by
    show QBody.mean M (.values (mapExprs g tg es)) = _
    rw [QBody_mean_values, QBody_mean_values, mm_Exprs es]
theorem mm_Named : ∀ (x : Named), Named.mean M (mapNamed g tg x) = Named.mean M x
  | .mk r a cols => by
    show Named.mean M (.mk (mapRel g tg r) a cols) = _
    rw [Named_mean_mk, Named_mean_mk, mm_Rel r]
theorem mm_Rel : ∀ (x : Rel), Rel.mean M (mapRel g tg x) = Rel.mean M x
  | .table t => by
    show Rel.mean M (.table (tg t)) = _
    rw [Rel_mean_table, Rel_mean_table, htg t]
  | .query q => by
    show Rel.mean M (.query (mapQuery g tg q)) = _
    rw [Rel_mean_query, Rel_mean_query, mm_Query q]
  | .aliased n => by
    show Rel.mean M (.aliased (mapNamed g tg n)) = _
    rw [Rel_mean_aliased, Rel_mean_aliased, mm_Named n]
  | .join l r t nat cr => by
    show Rel.mean M (.join (mapRel g tg l) (mapRel g tg r) t nat (mapCritOpt g tg cr)) = _
    rw [Rel_mean_join, Rel_mean_join, mm_Rel l, mm_Rel r, mm_CritOpt cr]
  | .unnest as ord => by
    show Rel.mean M (.unnest (mapExprs g tg as) ord) = _
    rw [Rel_mean_unnest, Rel_mean_unnest, mm_Exprs as]
  | .lateral q => by
    show Rel.mean M (.lateral (mapQuery g tg q)) = _
    rw [Rel_mean_lateral, Rel_mean_lateral, mm_Query q]
  | .sample r t p => by
    show Rel.mean M (.sample (mapRel g tg r) t (mapExpr g tg p)) = _
    rw [Rel_mean_sample, Rel_mean_sample, mm_Rel r, mm_Expr p]
theorem mm_Crit : ∀ (x : Crit), Crit.mean M (mapCrit g tg x) = Crit.mean M x
  | .using cols => rfl
  | .on e => by
    show Crit.mean M (.on (mapExpr g tg e)) = _
    rw [Crit_mean_on, Crit_mean_on, mm_Expr e]
theorem mm_ExprOpt : ∀ (x : Option Expr), Expr.meanOpt M (mapExprOpt g tg x) = Expr.meanOpt M x
  | none => rfl
  | some x => by
    show Expr.meanOpt M (some (mapExpr g tg x)) = _
    rw [Expr_meanOpt_some, Expr_meanOpt_some, mm_Expr x]
theorem mm_Exprs : ∀ (x : List Expr), Expr.means M (mapExprs g tg x) = Expr.means M x
  | [] => rfl
  | x :: xs => by
    show Expr.means M (mapExpr g tg x :: mapExprs g tg xs) = _
    rw [Expr_means_cons, Expr_means_cons, mm_Expr x, mm_Exprs xs]
theorem mm_Lists : ∀ (x : List (List Expr)), Expr.meanLists M (mapLists g tg x) = Expr.meanLists M x
  | [] => rfl
  | x :: xs => by
    show Expr.meanLists M (mapExprs g tg x :: mapLists g tg xs) = _
    rw [Expr_meanLists_cons, Expr_meanLists_cons, mm_Exprs x, mm_Lists xs]
theorem mm_Whens : ∀ (x : List (Expr × Expr)), Expr.meanWhens M (mapWhens g tg x) = Expr.meanWhens M x
  | [] => rfl
  | (c, v) :: xs => by
    show Expr.meanWhens M ((mapExpr g tg c, mapExpr g tg v) :: mapWhens g tg xs) = _
    rw [Expr_meanWhens_cons, Expr_meanWhens_cons, mm_Expr c, mm_Expr v, mm_Whens xs]
theorem mm_Ords : ∀ (x : List Ord), Ord.means M (mapOrds g tg x) = Ord.means M x
  | [] => rfl
  | x :: xs => by
    show Ord.means M (mapOrd g tg x :: mapOrds g tg xs) = _
    rw [Ord_means_cons, Ord_means_cons, mm_Ord x, mm_Ords xs]
theorem mm_WinOpt : ∀ (x : Option Win), Win.meanOpt M (mapWinOpt g tg x) = Win.meanOpt M x
  | none => rfl
  | some x => by
    show Win.meanOpt M (some (mapWin g tg x)) = _
    rw [Win_meanOpt_some, Win_meanOpt_some, mm_Win x]
theorem mm_Grps : ∀ (x : List Grp), Grp.means M (mapGrps g tg x) = Grp.means M x
  | [] => rfl
  | x :: xs => by
    show Grp.means M (mapGrp g tg x :: mapGrps g tg xs) = _
    rw [Grp_means_cons, Grp_means_cons, mm_Grp x, mm_Grps xs]
theorem mm_GroupByOpt : ∀ (x : Option GroupBy), GroupBy.meanOpt M (mapGroupByOpt g tg x) = GroupBy.meanOpt M x
  | none => rfl
  | some x => by
    show GroupBy.meanOpt M (some (mapGroupBy g tg x)) = _
    rw [GroupBy_meanOpt_some, GroupBy_meanOpt_some, mm_GroupBy x]
theorem mm_NamedWins : ∀ (x : List (Str × Win)), Win.meanNamed M (mapNamedWins g tg x) = Win.meanNamed M x
  | [] => rfl
  | (n, w) :: xs => by
    show Win.meanNamed M ((n, mapWin g tg w) :: mapNamedWins g tg xs) = _
    rw [Win_meanNamed_cons, Win_meanNamed_cons, mm_Win w, mm_NamedWins xs]
theorem mm_Nameds : ∀ (x : List Named), Named.meanWiths M (mapNameds g tg x) = Named.meanWiths M x
  | [] => rfl
  | .mk r a cols :: xs => by
    show Named.meanWiths M (.mk (mapRel g tg r) a cols :: mapNameds g tg xs) = _
    rw [Named_meanWiths_cons, Named_meanWiths_cons, Named_meanWith_mk, Named_meanWith_mk, mm_Rel r, mm_Nameds xs]
theorem mm_RelOpt : ∀ (x : Option Rel), Rel.meanOpt M (mapRelOpt g tg x) = Rel.meanOpt M x
  | none => rfl
  | some x => by
    show Rel.meanOpt M (some (mapRel g tg x)) = _
    rw [Rel_meanOpt_some, Rel_meanOpt_some, mm_Rel x]
theorem mm_CritOpt : ∀ (x : Option Crit), Crit.meanOpt M (mapCritOpt g tg x) = Crit.meanOpt M x
  | none => rfl
  | some x => by
    show Crit.meanOpt M (some (mapCrit g tg x)) = _
    rw [Crit_meanOpt_some, Crit_meanOpt_some, mm_Crit x]
end
end

end Treeno
