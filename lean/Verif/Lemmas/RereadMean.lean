import Verif.Lemmas.MapMean
import Verif.Lemmas.RereadEqs
import Verif.Lemmas.RowsEqs
import Verif.Lemmas.CstMean
/-!
# The tree that one gets back means the same
-/
namespace Treeno
open Spec

variable {M : Model}

theorem bindNode_mean (ins : List Str) (e : Expr) : (bindNode ins e).mean M = e.mean M := by
  cases e
  case field n tn t =>
    cases tn with
    | some m => rfl
    | none =>
      show Expr.mean M (if n ∈ ins then .var n else .field n none t) = _
      by_cases h : n ∈ ins
      · rw [if_pos h]; rfl
      · rw [if_neg h]
  all_goals rfl

theorem bind_mean (ins : List Str) (e : Expr) : (bind ins e).mean M = e.mean M :=
  mm_Expr (bindNode_mean ins) (fun _ => rfl) e

theorem truthy_truthy (s : Option Str) : truthy (truthy s) = truthy s := by
  rcases s with _ | ⟨_ | ⟨c, s⟩⟩ <;> rfl

theorem notOf_mean (v : Expr) : (notOf v v.reread).mean M = Model.not (v.reread.mean M) := by
  unfold notOf
  cases h : isEquality v with
  | false => rfl
  | true =>
    rw [if_pos rfl]
    cases v
    case bin op a b =>
      rw [Expr_reread_bin, Expr_mean_bin]
      cases op
      case eq => exact not_eq _ _
      case ne => exact not_ne _ _
      all_goals exact nomatch h
    all_goals exact nomatch h

theorem signedOf_mean (op : UnOp) (e : Expr) : (signedOf op e).mean M = signMeaning op (e.mean M) := by
  cases op with
  | pos => rfl
  | neg =>
    unfold signedOf
    split
    · next n t =>
      funext env
      exact (M.negate_int _).symm
    · next d t =>
      funext env
      exact (M.negate_dec _).symm
    · rfl

theorem offset_rows (n : Option Int) (q : M.D) : Model.offset (rowsOf n) q = Model.offset n q := by
  cases n with
  | none => rfl
  | some n =>
    unfold rowsOf
    by_cases h : n = 0
    · subst h; rfl
    · simp [h]

theorem limited_rows {n : Option Int} (h : n ≠ some 0) (q : M.D) : Model.limited (rowsOf n) q = Model.limited n q := by
  cases n with
  | none => rfl
  | some n =>
    have : n ≠ 0 := fun e => h (by rw [e])
    simp [rowsOf, this]

mutual
theorem rm_Expr : ∀ (x : Expr), Expr.Rows x → Expr.mean M (Expr.reread x) = Expr.mean M x
  | .lit v t, h => by
    rw [Expr_reread_lit]
    rfl
  | .field n tn t, h => by
    rw [Expr_reread_field, Expr_mean_field, Expr_mean_field, truthy_truthy]
  | .fieldOf n b t, h => by
    rw [Expr_Rows_fieldOf] at h
    rw [Expr_reread_fieldOf, Expr_mean_fieldOf, Expr_mean_fieldOf, rm_Expr b h]
  | .alias v n, h => by
    rw [Expr_Rows_alias] at h
    rw [Expr_reread_alias, Expr_mean_alias, Expr_mean_alias, rm_Expr v h]
  | .star tn t, h => by
    rw [Expr_reread_star, Expr_mean_star, Expr_mean_star, truthy_truthy]
  | .starOf b t, h => by
    rw [Expr_Rows_starOf] at h
    rw [Expr_reread_starOf, Expr_mean_starOf, Expr_mean_starOf, rm_Expr b h]
  | .aliasedStar s as, h => by
    rw [Expr_Rows_aliasedStar] at h
    rw [Expr_reread_aliasedStar, Expr_mean_aliasedStar, Expr_mean_aliasedStar, rm_Expr s h]
  | .var n, h => by
    rfl
  | .lam ins b, h => by
    rw [Expr_Rows_lam] at h
    rw [Expr_reread_lam, Expr_mean_lam, Expr_mean_lam, bind_mean, rm_Expr b h]
  | .un op v, h => by
    rw [Expr_Rows_un] at h
    rw [Expr_reread_un, signedOf_mean, Expr_mean_un, rm_Expr v h]
  | .bin op l r, h => by
    rw [Expr_Rows_bin] at h
    rw [Expr_reread_bin, Expr_mean_bin, Expr_mean_bin, rm_Expr l h.1, rm_Expr r h.2]
  | .not v, h => by
    rw [Expr_Rows_not] at h
    rw [Expr_reread_not, notOf_mean, Expr_mean_not, rm_Expr v h]
  | .isNull v, h => by
    rw [Expr_Rows_isNull] at h
    rw [Expr_reread_isNull, Expr_mean_isNull, Expr_mean_isNull, rm_Expr v h]
  | .between v l u, h => by
    rw [Expr_Rows_between] at h
    rw [Expr_reread_between, Expr_mean_between, Expr_mean_between, rm_Expr v h.1, rm_Expr l h.2.1, rm_Expr u h.2.2]
  | .array vs, h => by
    rw [Expr_Rows_array] at h
    rw [Expr_reread_array, Expr_mean_array, Expr_mean_array, rm_Exprs vs h]
  | .inQuery v q, h => by
    rw [Expr_Rows_inQuery] at h
    rw [Expr_reread_inQuery, Expr_mean_inQuery, Expr_mean_inQuery, rm_Expr v h.1, rm_Query q h.2]
  | .inList v es, h => by
    rw [Expr_Rows_inList] at h
    rw [Expr_reread_inList, Expr_mean_inList, Expr_mean_inList, rm_Expr v h.1, rm_Exprs es h.2]
  | .like v p e, h => by
    rw [Expr_Rows_like] at h
    rw [Expr_reread_like, Expr_mean_like, Expr_mean_like, rm_Expr v h.1, rm_Expr p h.2.1, rm_ExprOpt e h.2.2]
  | .typeCtor v t, h => by
    rfl
  | .row vs, h => by
    rw [Expr_Rows_row] at h
    rw [Expr_reread_row, Expr_mean_row, Expr_mean_row, rm_Exprs vs h]
  | .interval v f t, h => by
    rfl
  | .cast tr e t, h => by
    rw [Expr_Rows_cast] at h
    rw [Expr_reread_cast, Expr_mean_cast, Expr_mean_cast, rm_Expr e h]
  | .subscript v i, h => by
    rw [Expr_Rows_subscript] at h
    rw [Expr_reread_subscript, Expr_mean_subscript, Expr_mean_subscript, rm_Expr v h.1, rm_Expr i h.2]
  | .case v bs e, h => by
    rw [Expr_Rows_case] at h
    rw [Expr_reread_case, Expr_mean_case, Expr_mean_case, rm_ExprOpt v h.1, rm_Whens bs h.2.1, rm_ExprOpt e h.2.2]
  | .func f as, h => by
    rw [Expr_Rows_func] at h
    rw [Expr_reread_func, Expr_mean_func, Expr_mean_func, rm_Exprs as h]
  | .agg f as ob fl w ign, h => by
    rw [Expr_Rows_agg] at h
    rw [Expr_reread_agg, Expr_mean_agg, Expr_mean_agg, rm_Exprs as h.1, rm_Ords ob h.2.1, rm_ExprOpt fl h.2.2.1, rm_WinOpt w h.2.2.2]
  | .listagg v sep ov ob, h => by
    rw [Expr_Rows_listagg] at h
    rw [Expr_reread_listagg, Expr_mean_listagg, Expr_mean_listagg, rm_Expr v h.1, rm_Ords ob h.2]
  | .curTime f p, h => by
    rfl
  | .session f, h => by
    rfl
  | .normalize v fo, h => by
    rw [Expr_Rows_normalize] at h
    rw [Expr_reread_normalize, Expr_mean_normalize, Expr_mean_normalize, rm_Expr v h]
  | .query q, h => by
    rw [Expr_Rows_query] at h
    rw [Expr_reread_query, Expr_mean_query, Expr_mean_query, rm_Query q h]
theorem rm_Ord : ∀ (x : Ord), Ord.Rows x → Ord.mean M (Ord.reread x) = Ord.mean M x
  | .mk v d nf, h => by
    rw [Ord_Rows_mk] at h
    rw [Ord_reread_mk, Ord_mean_mk, Ord_mean_mk, rm_Expr v h]
theorem rm_Bound : ∀ (x : Bound), Bound.Rows x → Bound.mean M (Bound.reread x) = Bound.mean M x
  | .bounded t e, h => by
    rw [Bound_Rows_bounded] at h
    rw [Bound_reread_bounded, Bound_mean_bounded, Bound_mean_bounded, rm_Expr e h]
  | .unbounded t, h => by
    rfl
  | .current, h => by
    rfl
theorem rm_Win : ∀ (x : Win), Win.Rows x → Win.mean M (Win.reread x) = Win.mean M x
  | .mk p ob ps f st en, h => by
    rw [Win_Rows_mk] at h
    rw [Win_reread_mk, Win_mean_mk, Win_mean_mk, truthy_truthy, rm_Ords ob h.1, rm_Exprs ps h.2.1, rm_Bound st h.2.2.1, rm_Bound en h.2.2.2]
theorem rm_Grp : ∀ (x : Grp), Grp.Rows x → Grp.mean M (Grp.reread x) = Grp.mean M x
  | .set vs, h => by
    rw [Grp_Rows_set] at h
    rw [Grp_reread_set, Grp_mean_set, Grp_mean_set, rm_Exprs vs h]
  | .sets gs, h => by
    rw [Grp_Rows_sets] at h
    rw [Grp_reread_sets, Grp_mean_sets, Grp_mean_sets, rm_Lists gs h]
  | .cube vs, h => by
    rw [Grp_Rows_cube] at h
    rw [Grp_reread_cube, Grp_mean_cube, Grp_mean_cube, rm_Exprs vs h]
  | .rollup vs, h => by
    rw [Grp_Rows_rollup] at h
    rw [Grp_reread_rollup, Grp_mean_rollup, Grp_mean_rollup, rm_Exprs vs h]
theorem rm_GroupBy : ∀ (x : GroupBy), GroupBy.Rows x → GroupBy.mean M (GroupBy.reread x) = GroupBy.mean M x
  | .mk gs d, h => by
    rw [GroupBy_Rows_mk] at h
    rw [GroupBy_reread_mk, GroupBy_mean_mk, GroupBy_mean_mk, rm_Grps gs h]
theorem rm_Query : ∀ (x : Query), Query.Rows x → Query.mean M (Query.reread x) = Query.mean M x
  | .mk b off lim ob w, h => by
    rw [Query_Rows_mk] at h
    rw [Query_reread_mk, Query_mean_mk, Query_mean_mk, rm_QBody b h.2.2.2, rm_Ords ob h.2.2.1, rm_Nameds w h.2.1, offset_rows, limited_rows h.1]
theorem rm_QBody : ∀ (x : QBody), QBody.Rows x → QBody.mean M (QBody.reread x) = QBody.mean M x
  | .select items fr wh gb hv d wins, h => by
    rw [QBody_Rows_select] at h
    rw [QBody_reread_select, QBody_mean_select, QBody_mean_select, rm_Exprs items h.1, rm_RelOpt fr h.2.1, rm_ExprOpt wh h.2.2.1, rm_GroupByOpt gb h.2.2.2.1, rm_ExprOpt hv h.2.2.2.2.1, rm_NamedWins wins h.2.2.2.2.2]
  | .set k l r d, h => by
    rw [QBody_Rows_set] at h
    rw [QBody_reread_set, QBody_mean_set, QBody_mean_set, rm_Query l h.1, rm_Query r h.2]
  | .table t, h => by
    rfl
  | .values es, h => by
    rw [QBody_Rows_values] at h
    rw [QBody_reread_values, QBody_mean_values, QBody_mean_values, rm_Exprs es h]
theorem rm_Named : ∀ (x : Named), Named.Rows x → Named.mean M (Named.reread x) = Named.mean M x
  | .mk r a cols, h => by
    rw [Named_Rows_mk] at h
    rw [Named_reread_mk, Named_mean_mk, Named_mean_mk, rm_Rel r h]
theorem rm_Rel : ∀ (x : Rel), Rel.Rows x → Rel.mean M (Rel.reread x) = Rel.mean M x
  | .table t, h => by
    rfl
  | .query q, h => by
    rw [Rel_Rows_query] at h
    rw [Rel_reread_query, Rel_mean_query, Rel_mean_query, rm_Query q h]
  | .aliased n, h => by
    rw [Rel_Rows_aliased] at h
    rw [Rel_reread_aliased, Rel_mean_aliased, Rel_mean_aliased, rm_Named n h]
  | .join l r t nat cr, h => by
    rw [Rel_Rows_join] at h
    rw [Rel_reread_join, Rel_mean_join, Rel_mean_join, rm_Rel l h.1, rm_Rel r h.2.1, rm_CritOpt cr h.2.2]
  | .unnest as ord, h => by
    rw [Rel_Rows_unnest] at h
    rw [Rel_reread_unnest, Rel_mean_unnest, Rel_mean_unnest, rm_Exprs as h]
  | .lateral q, h => by
    rw [Rel_Rows_lateral] at h
    rw [Rel_reread_lateral, Rel_mean_lateral, Rel_mean_lateral, rm_Query q h]
  | .sample r t p, h => by
    rw [Rel_Rows_sample] at h
    rw [Rel_reread_sample, Rel_mean_sample, Rel_mean_sample, rm_Rel r h.1, rm_Expr p h.2]
theorem rm_Crit : ∀ (x : Crit), Crit.Rows x → Crit.mean M (Crit.reread x) = Crit.mean M x
  | .using cols, h => by
    rfl
  | .on e, h => by
    rw [Crit_Rows_on] at h
    rw [Crit_reread_on, Crit_mean_on, Crit_mean_on, rm_Expr e h]
theorem rm_ExprOpt : ∀ (x : Option Expr), Expr.RowsOpt x → Expr.meanOpt M (Expr.rereadOpt x) = Expr.meanOpt M x
  | none, _ => rfl
  | some x, h => by
    rw [Expr_RowsOpt_some] at h
    rw [Expr_rereadOpt_some, Expr_meanOpt_some, Expr_meanOpt_some, rm_Expr x h]
theorem rm_Exprs : ∀ (x : List Expr), Expr.Rowss x → Expr.means M (Expr.rereads x) = Expr.means M x
  | [], _ => rfl
  | x :: xs, h => by
    rw [Expr_Rowss_cons] at h
    rw [Expr_rereads_cons, Expr_means_cons, Expr_means_cons, rm_Expr x h.1, rm_Exprs xs h.2]
theorem rm_Lists : ∀ (x : List (List Expr)), Expr.RowsLists x → Expr.meanLists M (Expr.rereadLists x) = Expr.meanLists M x
  | [], _ => rfl
  | x :: xs, h => by
    rw [Expr_RowsLists_cons] at h
    rw [Expr_rereadLists_cons, Expr_meanLists_cons, Expr_meanLists_cons, rm_Exprs x h.1, rm_Lists xs h.2]
theorem rm_Whens : ∀ (x : List (Expr × Expr)), Expr.RowsWhens x → Expr.meanWhens M (Expr.rereadWhens x) = Expr.meanWhens M x
  | [], _ => rfl
  | (c, v) :: xs, h => by
    rw [Expr_RowsWhens_cons] at h
    rw [Expr_rereadWhens_cons, Expr_meanWhens_cons, Expr_meanWhens_cons, rm_Expr c h.1, rm_Expr v h.2.1, rm_Whens xs h.2.2]
theorem rm_Ords : ∀ (x : List Ord), Ord.Rowss x → Ord.means M (Ord.rereads x) = Ord.means M x
  | [], _ => rfl
  | x :: xs, h => by
    rw [Ord_Rowss_cons] at h
    rw [Ord_rereads_cons, Ord_means_cons, Ord_means_cons, rm_Ord x h.1, rm_Ords xs h.2]
theorem rm_WinOpt : ∀ (x : Option Win), Win.RowsOpt x → Win.meanOpt M (Win.rereadOpt x) = Win.meanOpt M x
  | none, _ => rfl
  | some x, h => by
    rw [Win_RowsOpt_some] at h
    rw [Win_rereadOpt_some, Win_meanOpt_some, Win_meanOpt_some, rm_Win x h]
theorem rm_Grps : ∀ (x : List Grp), Grp.Rowss x → Grp.means M (Grp.rereads x) = Grp.means M x
  | [], _ => rfl
  | x :: xs, h => by
    rw [Grp_Rowss_cons] at h
    rw [Grp_rereads_cons, Grp_means_cons, Grp_means_cons, rm_Grp x h.1, rm_Grps xs h.2]
theorem rm_GroupByOpt : ∀ (x : Option GroupBy), GroupBy.RowsOpt x → GroupBy.meanOpt M (GroupBy.rereadOpt x) = GroupBy.meanOpt M x
  | none, _ => rfl
  | some x, h => by
    rw [GroupBy_RowsOpt_some] at h
    rw [GroupBy_rereadOpt_some, GroupBy_meanOpt_some, GroupBy_meanOpt_some, rm_GroupBy x h]
theorem rm_NamedWins : ∀ (x : List (Str × Win)), Win.RowsNamed x → Win.meanNamed M (Win.rereadNamed x) = Win.meanNamed M x
  | [], _ => rfl
  | (n, w) :: xs, h => by
    rw [Win_RowsNamed_cons] at h
    rw [Win_rereadNamed_cons, Win_meanNamed_cons, Win_meanNamed_cons, rm_Win w h.1, rm_NamedWins xs h.2]
theorem rm_Nameds : ∀ (x : List Named), Named.RowsWiths x → Named.meanWiths M (Named.rereads x) = Named.meanWiths M x
  | [], _ => rfl
  | .mk r a cols :: xs, h => by
    rw [Named_RowsWiths_cons] at h
    rw [Named_RowsWith_mk] at h
    rw [Named_rereads_cons, Named_reread_mk, Named_meanWiths_cons, Named_meanWiths_cons, Named_meanWith_mk, Named_meanWith_mk, rm_Rel r h.1, rm_Nameds xs h.2]
theorem rm_RelOpt : ∀ (x : Option Rel), Rel.RowsOpt x → Rel.meanOpt M (Rel.rereadOpt x) = Rel.meanOpt M x
  | none, _ => rfl
  | some x, h => by
    rw [Rel_RowsOpt_some] at h
    rw [Rel_rereadOpt_some, Rel_meanOpt_some, Rel_meanOpt_some, rm_Rel x h]
theorem rm_CritOpt : ∀ (x : Option Crit), Crit.RowsOpt x → Crit.meanOpt M (Crit.rereadOpt x) = Crit.meanOpt M x
  | none, _ => rfl
  | some x, h => by
    rw [Crit_RowsOpt_some] at h
    rw [Crit_rereadOpt_some, Crit_meanOpt_some, Crit_meanOpt_some, rm_Crit x h]
end

end Treeno
