import Verif.Props.OneLineProps
/-!
# In default mode the indentation does not matter
-/
set_option linter.unusedVariables false
set_option linter.unusedSectionVars false
set_option linter.unusedSimpArgs false
namespace Treeno
open Spec

theorem bind_eq {α β : Type} {x : Except Err α} {f g : α → Except Err β} (h : ∀ a, x = .ok a → f a = g a) : x >>= f = x >>= g := by
  cases x with
  | error e => rfl
  | ok a => exact h a rfl

section
variable {n : Nat} (hn : n < 80)
include hn

theorem js (ss : List Str) (d : Str) : joinStmts ss ⟨.default, n⟩ d = joinStmts ss dfltOpts d := by
  unfold joinStmts joinPrinter
  rw [if_pos hn, if_pos (show dfltOpts.spaces < 80 by decide)]
  show Except.ok (join d (joinLoop .default _ _ _ _)) = .ok (join d (joinLoop .default _ _ _ _))
  rw [joinLoop_default, joinLoop_default]
theorem le (k pre : Str) (ss : List Str) : listEntry ⟨.default, n⟩ k pre ss = listEntry dfltOpts k pre ss := by
  unfold listEntry; rw [js hn]
theorem se (ss : List Str) : setText ⟨.default, n⟩ ss = setText dfltOpts ss := by
  unfold setText; split
  · rfl
  · rw [js hn]
theorem ct (a b : Str) (ss : List Str) : colsText ⟨.default, n⟩ a b ss = colsText dfltOpts a b ss := by
  unfold colsText; rw [js hn]
theorem ot (ss : List Str) : orderByText ⟨.default, n⟩ ss = orderByText dfltOpts ss := by
  unfold orderByText; rw [js hn]
theorem aa (a : Str) (ss : List Str) : aggArgs ⟨.default, n⟩ a ss = aggArgs dfltOpts a ss := by
  unfold aggArgs; rw [ot hn]; simp only [js hn]
theorem la (a b : Str) (ov : Option (Str × Bool)) : listaggArgs ⟨.default, n⟩ a b ov = listaggArgs dfltOpts a b ov := by
  unfold listaggArgs sepArgs overflowArgs; simp only [js hn]
end

theorem pe {n : Nat} (r : Bool) (es : Entries) : printEntries r es ⟨.default, n⟩ = printEntries r es dfltOpts := rfl

section
variable {n : Nat} (hn : n < 80)
include hn

mutual
theorem sp_Expr : ∀ (x : Expr), exprAll nb x → ∀ neg, x.sqlN neg ⟨.default, n⟩ = x.sqlN neg dfltOpts
  | .lit v t, ha, neg => by
    rfl
  | .field n tn t, ha, neg => by
    rfl
  | .fieldOf n b t, ha, neg => by
    rw [Expr_sqlN_fieldOf, Expr_sqlN_fieldOf, sp_Expr b ha.2 false]
    try simp only [js hn, le hn, se hn, ct hn, ot hn, aa hn, la hn]
    try rfl
  | .alias v n, ha, neg => by
    rw [Expr_sqlN_alias, Expr_sqlN_alias, sp_Expr v ha.2 false]
    try simp only [js hn, le hn, se hn, ct hn, ot hn, aa hn, la hn]
    try rfl
  | .star tn t, ha, neg => by
    rfl
  | .starOf b t, ha, neg => by
    rw [Expr_sqlN_starOf, Expr_sqlN_starOf, sp_Expr b ha false]
    try simp only [js hn, le hn, se hn, ct hn, ot hn, aa hn, la hn]
    try rfl
  | .aliasedStar s as, ha, neg => by
    rw [Expr_sqlN_aliasedStar, Expr_sqlN_aliasedStar, sp_Expr s ha.1 false, js hn]
  | .var n, ha, neg => by
    rfl
  | .lam ins b, ha, neg => by
    rw [Expr_sqlN_lam, Expr_sqlN_lam, sp_Expr b ha.2 false]
    try simp only [js hn, le hn, se hn, ct hn, ot hn, aa hn, la hn]
    try rfl
  | .un op v, ha, neg => by
    rw [Expr_sqlN_un, Expr_sqlN_un, sp_Expr v ha false]
    try simp only [js hn, le hn, se hn, ct hn, ot hn, aa hn, la hn]
    try rfl
  | .bin op l r, ha, neg => by
    rw [Expr_sqlN_bin, Expr_sqlN_bin]
    have key {v : Expr} (hv : v.sqlN false ⟨.default, n⟩ = v.sqlN false dfltOpts) : v.sqlN false (if neg = true ∧ op = .ne then dfltOpts else ⟨.default, n⟩) =
        v.sqlN false (if neg = true ∧ op = .ne then dfltOpts else dfltOpts) := by
      split
      · rfl
      · exact hv
    dsimp only
    rw [key (sp_Expr l ha.1 false), key (sp_Expr r ha.2 false)]
    refine bind_eq fun a _ => bind_eq fun b _ => ?_
    split
    · rfl
    · rfl
  | .not v, ha, neg => by
    rw [Expr_sqlN_not, Expr_sqlN_not, sp_Expr v ha true, sp_Expr v ha false]
  | .isNull v, ha, neg => by
    rw [Expr_sqlN_isNull, Expr_sqlN_isNull, sp_Expr v ha false]
    try simp only [js hn, le hn, se hn, ct hn, ot hn, aa hn, la hn]
    try rfl
  | .between v l u, ha, neg => by
    rw [Expr_sqlN_between, Expr_sqlN_between, sp_Expr v ha.1 false, sp_Expr l ha.2.1 false, sp_Expr u ha.2.2 false]
    try simp only [js hn, le hn, se hn, ct hn, ot hn, aa hn, la hn]
    try rfl
  | .array vs, ha, neg => by
    rw [Expr_sqlN_array, Expr_sqlN_array, sp_Exprs vs ha]
    try simp only [js hn, le hn, se hn, ct hn, ot hn, aa hn, la hn]
    try rfl
  | .inQuery v q, ha, neg => by
    rw [Expr_sqlN_inQuery, Expr_sqlN_inQuery, sp_Expr v ha.1 false, sp_Query q ha.2]
    try simp only [js hn, le hn, se hn, ct hn, ot hn, aa hn, la hn]
    try rfl
  | .inList v es, ha, neg => by
    rw [Expr_sqlN_inList, Expr_sqlN_inList, sp_Expr v ha.1 false, sp_Exprs es ha.2]
    try simp only [js hn, le hn, se hn, ct hn, ot hn, aa hn, la hn]
    try rfl
  | .like v p e, ha, neg => by
    rw [Expr_sqlN_like, Expr_sqlN_like, sp_Expr v ha.1 false, sp_Expr p ha.2.1 false, sp_ExprOpt e ha.2.2]
    try simp only [js hn, le hn, se hn, ct hn, ot hn, aa hn, la hn]
    try rfl
  | .typeCtor v t, ha, neg => by
    rfl
  | .row vs, ha, neg => by
    rw [Expr_sqlN_row, Expr_sqlN_row, sp_Exprs vs ha]
    try simp only [js hn, le hn, se hn, ct hn, ot hn, aa hn, la hn]
    try rfl
  | .interval v f t, ha, neg => by
    rfl
  | .cast tr e t, ha, neg => by
    rw [Expr_sqlN_cast, Expr_sqlN_cast, sp_Expr e ha false]
    try simp only [js hn, le hn, se hn, ct hn, ot hn, aa hn, la hn]
    try rfl
  | .subscript v i, ha, neg => by
    rw [Expr_sqlN_subscript, Expr_sqlN_subscript, sp_Expr v ha.1 false, sp_Expr i ha.2 false]
    try simp only [js hn, le hn, se hn, ct hn, ot hn, aa hn, la hn]
    try rfl
  | .case v bs e, ha, neg => by
    rw [Expr_sqlN_case, Expr_sqlN_case, sp_ExprOpt v ha.1, sp_Whens bs ha.2.1, sp_ExprOpt e ha.2.2]
    try simp only [js hn, le hn, se hn, ct hn, ot hn, aa hn, la hn]
    try rfl
  | .func f as, ha, neg => by
    rw [Expr_sqlN_func, Expr_sqlN_func, sp_Exprs as ha]
    try simp only [js hn, le hn, se hn, ct hn, ot hn, aa hn, la hn]
    try rfl
  | .agg f as ob fl w ign, ha, neg => by
    rw [Expr_sqlN_agg, Expr_sqlN_agg, sp_Exprs as ha.1, sp_Ords ob ha.2.1, sp_ExprOpt fl ha.2.2.1, sp_WinOpt w ha.2.2.2]
    simp only [js hn, aa hn, pe]
    refine bind_eq fun ss _ => bind_eq fun a _ => bind_eq fun os _ => bind_eq fun b _ => bind_eq fun fs hfs => bind_eq fun ws hws => bind_eq fun cs hcs => ?_
    have hc : nb cs := by
      refine nb_print rfl ?_ hcs
      refine mem_append_nb (mem_append_nb (optEntry_nb (by decide) ?_) ?_) (optEntry_nb (by decide) ?_)
      · exact optMap_nb (fun s hs => nb_app (nb_app (by decide) hs) (by decide)) (nb_exprOpt fl _ _ rfl ha.2.2.1 hfs)
      · cases ign
        · intro e he; cases he
        · exact single_nb (by decide) (by decide)
      · exact optMap_nb (fun s hs => nb_parenS hs) (nb_winOpt w _ _ rfl ha.2.2.2 hws)
    rw [pad_nb (nb_app (nb_spacing rfl) hc), pad_nb (nb_app (nb_spacing rfl) hc)]
    rfl
  | .listagg v sep ov ob, ha, neg => by
    rw [Expr_sqlN_listagg, Expr_sqlN_listagg, sp_Expr v ha.2.1 false, sp_Ords ob ha.2.2.2]
    simp only [la hn, ot hn]
    refine bind_eq fun x _ => bind_eq fun y _ => bind_eq fun os hos => bind_eq fun z hz => ?_
    have hz' := nb_orderBy rfl (nb_ords ob _ _ rfl ha.2.2.2 hos) hz
    have hp : nb (c% "WITHIN GROUP (" ++ z ++ c% ")") := nb_app (nb_app (by decide) hz') (by decide)
    rw [pad_nb (nb_app (nb_spacing rfl) hp), pad_nb (nb_app (nb_spacing rfl) hp)]
    rfl
  | .curTime f p, ha, neg => by
    rfl
  | .session f, ha, neg => by
    rfl
  | .normalize v fo, ha, neg => by
    rfl
  | .query q, ha, neg => by
    rw [Expr_sqlN_query, Expr_sqlN_query, sp_Query q ha]
    try simp only [js hn, le hn, se hn, ct hn, ot hn, aa hn, la hn]
    try rfl
theorem sp_Ord : ∀ (x : Ord), ordAll nb x → Ord.sql ⟨.default, n⟩ x = Ord.sql dfltOpts x
  | .mk v d nf, ha => by
    rw [Ord_sql_mk, Ord_sql_mk, sp_Expr v ha false]
    try simp only [js hn, le hn, se hn, ct hn, ot hn, aa hn, la hn]
    try rfl
theorem sp_Bound : ∀ (x : Bound), boundAll nb x → Bound.sql ⟨.default, n⟩ x = Bound.sql dfltOpts x
  | .bounded t e, ha => by
    rw [Bound_sql_bounded, Bound_sql_bounded, sp_Expr e ha false]
    try simp only [js hn, le hn, se hn, ct hn, ot hn, aa hn, la hn]
    try rfl
  | .unbounded t, ha => by
    rfl
  | .current, ha => by
    rfl
theorem sp_Win : ∀ (x : Win), winAll nb x → Win.sql ⟨.default, n⟩ x = Win.sql dfltOpts x
  | .mk p ob ps f st en, ha => by
    rw [Win_sql_mk, Win_sql_mk, sp_Ords ob ha.2.1, sp_Exprs ps ha.2.2.1, sp_Bound st ha.2.2.2.1, sp_Bound en ha.2.2.2.2]
    try simp only [js hn, le hn, se hn, ct hn, ot hn, aa hn, la hn]
    try rfl
theorem sp_Grp : ∀ (x : Grp), grpAll nb x → Grp.sql ⟨.default, n⟩ x = Grp.sql dfltOpts x
  | .set vs, ha => by
    rw [Grp_sql_set, Grp_sql_set, sp_Exprs vs ha]
    try simp only [js hn, le hn, se hn, ct hn, ot hn, aa hn, la hn]
    try rfl
  | .sets gs, ha => by
    rw [Grp_sql_sets, Grp_sql_sets, sp_Lists gs ha]
    try simp only [js hn, le hn, se hn, ct hn, ot hn, aa hn, la hn]
    try rfl
  | .cube vs, ha => by
    rw [Grp_sql_cube, Grp_sql_cube, sp_Exprs vs ha]
    try simp only [js hn, le hn, se hn, ct hn, ot hn, aa hn, la hn]
    try rfl
  | .rollup vs, ha => by
    rw [Grp_sql_rollup, Grp_sql_rollup, sp_Exprs vs ha]
    try simp only [js hn, le hn, se hn, ct hn, ot hn, aa hn, la hn]
    try rfl
theorem sp_GroupBy : ∀ (x : GroupBy), groupByAll nb x → GroupBy.sql ⟨.default, n⟩ x = GroupBy.sql dfltOpts x
  | .mk gs d, ha => by
    rw [GroupBy_sql_mk, GroupBy_sql_mk, sp_Grps gs ha]
    try simp only [js hn, le hn, se hn, ct hn, ot hn, aa hn, la hn]
    try rfl
theorem sp_Query : ∀ (x : Query), queryAll nb x → Query.sql ⟨.default, n⟩ x = Query.sql dfltOpts x
  | .mk b off lim ob w, ha => by
    rw [Query_sql_mk, Query_sql_mk, sp_Ords ob ha.2.1, sp_Nameds w ha.2.2]
    simp only [sp_QBody b ha.1, js hn, le hn, se hn, ct hn, ot hn, aa hn, la hn]
theorem sp_QBody : ∀ (x : QBody), bodyAll nb x → ∀ we ce, x.sql ⟨.default, n⟩ we ce = x.sql dfltOpts we ce
  | .select items fr wh gb hv d wins, ha, we, ce => by
    rw [QBody_sql_select, QBody_sql_select, sp_Exprs items ha.1, sp_RelOpt fr ha.2.1, sp_ExprOpt wh ha.2.2.1, sp_GroupByOpt gb ha.2.2.2.1, sp_ExprOpt hv ha.2.2.2.2.1, sp_NamedWins wins ha.2.2.2.2.2]
    try simp only [js hn, le hn, se hn, ct hn, ot hn, aa hn, la hn]
    try rfl
  | .set k l r d, ha, we, ce => by
    rw [QBody_sql_set, QBody_sql_set, sp_Query l ha.1, sp_Query r ha.2]
    try simp only [js hn, le hn, se hn, ct hn, ot hn, aa hn, la hn]
    try rfl
  | .table t, ha, we, ce => by
    rfl
  | .values es, ha, we, ce => by
    rw [QBody_sql_values, QBody_sql_values, sp_Exprs es ha]
    try simp only [js hn, le hn, se hn, ct hn, ot hn, aa hn, la hn]
    try rfl
theorem sp_Named : ∀ (x : Named), namedAll nb x → Named.sql ⟨.default, n⟩ x = Named.sql dfltOpts x
  | .mk r a cols, ha => by
    rw [Named_sql_mk, Named_sql_mk, sp_Rel r ha.2.1]
    try simp only [js hn, le hn, se hn, ct hn, ot hn, aa hn, la hn]
    try rfl
theorem sp_Rel : ∀ (x : Rel), relAll nb x → Rel.sql ⟨.default, n⟩ x = Rel.sql dfltOpts x
  | .table t, ha => by
    rfl
  | .query q, ha => by
    rw [Rel_sql_query, Rel_sql_query, sp_Query q ha]
    try simp only [js hn, le hn, se hn, ct hn, ot hn, aa hn, la hn]
    try rfl
  | .aliased n, ha => by
    rw [Rel_sql_aliased, Rel_sql_aliased, sp_Named n ha]
    try simp only [js hn, le hn, se hn, ct hn, ot hn, aa hn, la hn]
    try rfl
  | .join l r t nat cr, ha => by
    rw [Rel_sql_join, Rel_sql_join, sp_Rel l ha.1, sp_Rel r ha.2.1, sp_CritOpt cr ha.2.2]
    try simp only [js hn, le hn, se hn, ct hn, ot hn, aa hn, la hn]
    try rfl
  | .unnest as ord, ha => by
    rw [Rel_sql_unnest, Rel_sql_unnest, sp_Exprs as ha]
    try simp only [js hn, le hn, se hn, ct hn, ot hn, aa hn, la hn]
    try rfl
  | .lateral q, ha => by
    rw [Rel_sql_lateral, Rel_sql_lateral, sp_Query q ha]
    try simp only [js hn, le hn, se hn, ct hn, ot hn, aa hn, la hn]
    try rfl
  | .sample r t p, ha => by
    rw [Rel_sql_sample, Rel_sql_sample, sp_Rel r ha.1, sp_Expr p ha.2 false]
    try simp only [js hn, le hn, se hn, ct hn, ot hn, aa hn, la hn]
    try rfl
theorem sp_Crit : ∀ (x : Crit), critAll nb x → Crit.entries ⟨.default, n⟩ x = Crit.entries dfltOpts x
  | .using cols, ha => by
    rw [Crit_entries_using, Crit_entries_using, js hn]
  | .on e, ha => by
    rw [Crit_entries_on, Crit_entries_on, sp_Expr e ha false]
    refine bind_eq fun x hx => ?_
    have hx' := nb_expr e _ _ _ rfl ha hx
    rw [pad_nb hx', pad_nb hx']
theorem sp_ExprOpt : ∀ (x : Option Expr), exprOptAll nb x → Expr.sqlOpt ⟨.default, n⟩ x = Expr.sqlOpt dfltOpts x
  | none, _ => rfl
  | some x, ha => by
    rw [Expr_sqlOpt_some, Expr_sqlOpt_some, sp_Expr x ha false]
theorem sp_Exprs : ∀ (x : List Expr), exprsAll nb x → Expr.sqls ⟨.default, n⟩ x = Expr.sqls dfltOpts x
  | [], _ => rfl
  | x :: xs, ha => by
    rw [Expr_sqls_cons, Expr_sqls_cons, sp_Expr x ha.1 false, sp_Exprs xs ha.2]
theorem sp_Lists : ∀ (x : List (List Expr)), listsAll nb x → Expr.setSqls ⟨.default, n⟩ x = Expr.setSqls dfltOpts x
  | [], _ => rfl
  | x :: xs, ha => by
    rw [Expr_setSqls_cons, Expr_setSqls_cons, sp_Exprs x ha.1, sp_Lists xs ha.2]
    simp only [js hn, le hn, se hn, ct hn, ot hn, aa hn, la hn]
theorem sp_Whens : ∀ (x : List (Expr × Expr)), whensAll nb x → Expr.whens ⟨.default, n⟩ x = Expr.whens dfltOpts x
  | [], _ => rfl
  | (c, v) :: xs, ha => by
    rw [Expr_whens_cons, Expr_whens_cons, sp_Expr c ha.1 false, sp_Expr v ha.2.1 false, sp_Whens xs ha.2.2]
theorem sp_Ords : ∀ (x : List Ord), ordsAll nb x → Ord.sqls ⟨.default, n⟩ x = Ord.sqls dfltOpts x
  | [], _ => rfl
  | x :: xs, ha => by
    rw [Ord_sqls_cons, Ord_sqls_cons, sp_Ord x ha.1, sp_Ords xs ha.2]
theorem sp_WinOpt : ∀ (x : Option Win), winOptAll nb x → Win.sqlOpt ⟨.default, n⟩ x = Win.sqlOpt dfltOpts x
  | none, _ => rfl
  | some x, ha => by
    rw [Win_sqlOpt_some, Win_sqlOpt_some, sp_Win x ha]
theorem sp_Grps : ∀ (x : List Grp), grpsAll nb x → Grp.sqls ⟨.default, n⟩ x = Grp.sqls dfltOpts x
  | [], _ => rfl
  | x :: xs, ha => by
    rw [Grp_sqls_cons, Grp_sqls_cons, sp_Grp x ha.1, sp_Grps xs ha.2]
theorem sp_GroupByOpt : ∀ (x : Option GroupBy), groupByOptAll nb x → GroupBy.sqlOpt ⟨.default, n⟩ x = GroupBy.sqlOpt dfltOpts x
  | none, _ => rfl
  | some x, ha => by
    rw [GroupBy_sqlOpt_some, GroupBy_sqlOpt_some, sp_GroupBy x ha]
theorem sp_NamedWins : ∀ (x : List (Str × Win)), namedWinsAll nb x → Win.namedSqls ⟨.default, n⟩ x = Win.namedSqls dfltOpts x
  | [], _ => rfl
  | (n, w) :: xs, ha => by
    rw [Win_namedSqls_cons, Win_namedSqls_cons, sp_Win w ha.2.1, sp_NamedWins xs ha.2.2]
theorem sp_Nameds : ∀ (x : List Named), namedsAll nb x → Named.namedSqls ⟨.default, n⟩ x = Named.namedSqls dfltOpts x
  | [], _ => rfl
  | .mk r a cols :: xs, ha => by
    rw [Named_namedSqls_cons, Named_namedSqls_cons, Named_namedSql_mk, Named_namedSql_mk, sp_Rel r ha.1.2.1, sp_Nameds xs ha.2]
    simp only [js hn, le hn, se hn, ct hn, ot hn, aa hn, la hn]
    try rfl
theorem sp_RelOpt : ∀ (x : Option Rel), relOptAll nb x → Rel.sqlOpt ⟨.default, n⟩ x = Rel.sqlOpt dfltOpts x
  | none, _ => rfl
  | some x, ha => by
    rw [Rel_sqlOpt_some, Rel_sqlOpt_some, sp_Rel x ha]
theorem sp_CritOpt : ∀ (x : Option Crit), critOptAll nb x → Crit.entriesOpt ⟨.default, n⟩ x = Crit.entriesOpt dfltOpts x
  | none, _ => rfl
  | some x, ha => by
    rw [Crit_entriesOpt_some, Crit_entriesOpt_some, sp_Crit x ha]
end
end

end Treeno
