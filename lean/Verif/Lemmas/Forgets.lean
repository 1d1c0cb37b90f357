import Verif.Lemmas.SqlEqs
import Verif.Spec.TreeMap
import Verif.Spec.Schemas
/-!
# The types that columns and tables carry are not printed
-/
set_option linter.unusedVariables false
set_option linter.unusedSimpArgs false
namespace Treeno
open Spec

theorem fg_prec (e : Expr) : (mapExpr forgetNode forgetTable e).prec = e.prec := by
  cases e <;> first | rfl | (rename_i f _; cases f <;> rfl)
theorem fg_negatable (e : Expr) : (mapExpr forgetNode forgetTable e).negatable = e.negatable := by
  cases e <;> first | rfl | (rename_i f _ _; cases f <;> rfl)
theorem fg_isQuery (r : Rel) : (mapRel forgetNode forgetTable r).isQuery = r.isQuery := by
  cases r <;> rfl
theorem fg_isJoin (r : Rel) : (mapRel forgetNode forgetTable r).isJoin = r.isJoin := by
  cases r <;> rfl
theorem fg_fromText (r : Option Rel) : fromText (mapRelOpt forgetNode forgetTable r) = fromText r := by
  funext s
  cases r with
  | none => rfl
  | some r =>
    show (if (mapRel forgetNode forgetTable r).isQuery then _ else _) = (if r.isQuery then _ else _)
    rw [fg_isQuery]
theorem fg_table (t : TableRef) : (forgetTable t).sql = t.sql := rfl

mutual
theorem fg_Expr : ∀ (x : Expr) (neg : Bool) (o : Opts), (mapExpr forgetNode forgetTable x).sqlN neg o = x.sqlN neg o
  | .lit v t, neg, o => rfl
  | .field n tn t, neg, o => rfl
  | .fieldOf n b t, neg, o => by
    show Expr.sqlN neg o (.fieldOf n (mapExpr forgetNode forgetTable b)  .unknown) = _
    simp only [Expr_sqlN_fieldOf, fg_Expr b, fg_prec, fg_negatable, fg_isQuery, fg_isJoin, fg_fromText, fg_table]
  | .alias v n, neg, o => by
    show Expr.sqlN neg o (.alias (mapExpr forgetNode forgetTable v) n) = _
    simp only [Expr_sqlN_alias, fg_Expr v, fg_prec, fg_negatable, fg_isQuery, fg_isJoin, fg_fromText, fg_table]
  | .star tn t, neg, o => rfl
  | .starOf b t, neg, o => by
    show Expr.sqlN neg o (.starOf (mapExpr forgetNode forgetTable b)  .unknown) = _
    simp only [Expr_sqlN_starOf, fg_Expr b, fg_prec, fg_negatable, fg_isQuery, fg_isJoin, fg_fromText, fg_table]
  | .aliasedStar s as, neg, o => by
    show Expr.sqlN neg o (.aliasedStar (mapExpr forgetNode forgetTable s) as) = _
    simp only [Expr_sqlN_aliasedStar, fg_Expr s, fg_prec, fg_negatable, fg_isQuery, fg_isJoin, fg_fromText, fg_table]
  | .var n, neg, o => rfl
  | .lam ins b, neg, o => by
    show Expr.sqlN neg o (.lam ins (mapExpr forgetNode forgetTable b)) = _
    simp only [Expr_sqlN_lam, fg_Expr b, fg_prec, fg_negatable, fg_isQuery, fg_isJoin, fg_fromText, fg_table]
  | .un op v, neg, o => by
    show Expr.sqlN neg o (.un op (mapExpr forgetNode forgetTable v)) = _
    simp only [Expr_sqlN_un, fg_Expr v, fg_prec, fg_negatable, fg_isQuery, fg_isJoin, fg_fromText, fg_table]
  | .bin op l r, neg, o => by
    show Expr.sqlN neg o (.bin op (mapExpr forgetNode forgetTable l) (mapExpr forgetNode forgetTable r)) = _
    simp only [Expr_sqlN_bin, fg_Expr l, fg_Expr r, fg_prec, fg_negatable, fg_isQuery, fg_isJoin, fg_fromText, fg_table]
  | .not v, neg, o => by
    show Expr.sqlN neg o (.not (mapExpr forgetNode forgetTable v)) = _
    simp only [Expr_sqlN_not, fg_Expr v, fg_prec, fg_negatable, fg_isQuery, fg_isJoin, fg_fromText, fg_table]
  | .isNull v, neg, o => by
    show Expr.sqlN neg o (.isNull (mapExpr forgetNode forgetTable v)) = _
    simp only [Expr_sqlN_isNull, fg_Expr v, fg_prec, fg_negatable, fg_isQuery, fg_isJoin, fg_fromText, fg_table]
  | .between v l u, neg, o => by
    show Expr.sqlN neg o (.between (mapExpr forgetNode forgetTable v) (mapExpr forgetNode forgetTable l) (mapExpr forgetNode forgetTable u)) = _
    simp only [Expr_sqlN_between, fg_Expr v, fg_Expr l, fg_Expr u, fg_prec, fg_negatable, fg_isQuery, fg_isJoin, fg_fromText, fg_table]
  | .array vs, neg, o => by
    show Expr.sqlN neg o (.array (mapExprs forgetNode forgetTable vs)) = _
    simp only [Expr_sqlN_array, fg_Exprs vs, fg_prec, fg_negatable, fg_isQuery, fg_isJoin, fg_fromText, fg_table]
  | .inQuery v q, neg, o => by
    show Expr.sqlN neg o (.inQuery (mapExpr forgetNode forgetTable v) (mapQuery forgetNode forgetTable q)) = _
    simp only [Expr_sqlN_inQuery, fg_Expr v, fg_Query q, fg_prec, fg_negatable, fg_isQuery, fg_isJoin, fg_fromText, fg_table]
  | .inList v es, neg, o => by
    show Expr.sqlN neg o (.inList (mapExpr forgetNode forgetTable v) (mapExprs forgetNode forgetTable es)) = _
    simp only [Expr_sqlN_inList, fg_Expr v, fg_Exprs es, fg_prec, fg_negatable, fg_isQuery, fg_isJoin, fg_fromText, fg_table]
  | .like v p e, neg, o => by
    show Expr.sqlN neg o (.like (mapExpr forgetNode forgetTable v) (mapExpr forgetNode forgetTable p) (mapExprOpt forgetNode forgetTable e)) = _
    simp only [Expr_sqlN_like, fg_Expr v, fg_Expr p, fg_ExprOpt e, fg_prec, fg_negatable, fg_isQuery, fg_isJoin, fg_fromText, fg_table]
  | .typeCtor v t, neg, o => rfl
  | .row vs, neg, o => by
    show Expr.sqlN neg o (.row (mapExprs forgetNode forgetTable vs)) = _
    simp only [Expr_sqlN_row, fg_Exprs vs, fg_prec, fg_negatable, fg_isQuery, fg_isJoin, fg_fromText, fg_table]
  | .interval v f t, neg, o => rfl
  | .cast tr e t, neg, o => by
    show Expr.sqlN neg o (.cast tr (mapExpr forgetNode forgetTable e) t) = _
    simp only [Expr_sqlN_cast, fg_Expr e, fg_prec, fg_negatable, fg_isQuery, fg_isJoin, fg_fromText, fg_table]
  | .subscript v i, neg, o => by
    show Expr.sqlN neg o (.subscript (mapExpr forgetNode forgetTable v) (mapExpr forgetNode forgetTable i)) = _
    simp only [Expr_sqlN_subscript, fg_Expr v, fg_Expr i, fg_prec, fg_negatable, fg_isQuery, fg_isJoin, fg_fromText, fg_table]
  | .case v bs e, neg, o => by
    show Expr.sqlN neg o (.case (mapExprOpt forgetNode forgetTable v) (mapWhens forgetNode forgetTable bs) (mapExprOpt forgetNode forgetTable e)) = _
    simp only [Expr_sqlN_case, fg_ExprOpt v, fg_Whens bs, fg_ExprOpt e, fg_prec, fg_negatable, fg_isQuery, fg_isJoin, fg_fromText, fg_table]
  | .func f as, neg, o => by
    show Expr.sqlN neg o (.func f (mapExprs forgetNode forgetTable as)) = _
    simp only [Expr_sqlN_func, fg_Exprs as, fg_prec, fg_negatable, fg_isQuery, fg_isJoin, fg_fromText, fg_table]
  | .agg f as ob fl w ign, neg, o => by
    show Expr.sqlN neg o (.agg f (mapExprs forgetNode forgetTable as) (mapOrds forgetNode forgetTable ob) (mapExprOpt forgetNode forgetTable fl) (mapWinOpt forgetNode forgetTable w) ign) = _
    simp only [Expr_sqlN_agg, fg_Exprs as, fg_Ords ob, fg_ExprOpt fl, fg_WinOpt w, fg_prec, fg_negatable, fg_isQuery, fg_isJoin, fg_fromText, fg_table]
  | .listagg v sep ov ob, neg, o => by
    show Expr.sqlN neg o (.listagg (mapExpr forgetNode forgetTable v) sep ov (mapOrds forgetNode forgetTable ob)) = _
    simp only [Expr_sqlN_listagg, fg_Expr v, fg_Ords ob, fg_prec, fg_negatable, fg_isQuery, fg_isJoin, fg_fromText, fg_table]
  | .curTime f p, neg, o => rfl
  | .session f, neg, o => rfl
  | .normalize v fo, neg, o => rfl
  | .query q, neg, o => by
    show Expr.sqlN neg o (.query (mapQuery forgetNode forgetTable q)) = _
    simp only [Expr_sqlN_query, fg_Query q, fg_prec, fg_negatable, fg_isQuery, fg_isJoin, fg_fromText, fg_table]
theorem fg_Ord : ∀ (x : Ord) (o : Opts), Ord.sql o (mapOrd forgetNode forgetTable x) = Ord.sql o x
  | .mk v d nf, o => by
    show Ord.sql o (.mk (mapExpr forgetNode forgetTable v) d nf) = _
    simp only [Ord_sql_mk, fg_Expr v, fg_prec, fg_negatable, fg_isQuery, fg_isJoin, fg_fromText, fg_table]
theorem fg_Bound : ∀ (x : Bound) (o : Opts), Bound.sql o (mapBound forgetNode forgetTable x) = Bound.sql o x
  | .bounded t e, o => by
    show Bound.sql o (.bounded t (mapExpr forgetNode forgetTable e)) = _
    simp only [Bound_sql_bounded, fg_Expr e, fg_prec, fg_negatable, fg_isQuery, fg_isJoin, fg_fromText, fg_table]
  | .unbounded t, o => rfl
  | .current, o => rfl
theorem fg_Win : ∀ (x : Win) (o : Opts), Win.sql o (mapWin forgetNode forgetTable x) = Win.sql o x
  | .mk p ob ps f st en, o => by
    show Win.sql o (.mk p (mapOrds forgetNode forgetTable ob) (mapExprs forgetNode forgetTable ps) f (mapBound forgetNode forgetTable st) (mapBound forgetNode forgetTable en)) = _
    simp only [Win_sql_mk, fg_Ords ob, fg_Exprs ps, fg_Bound st, fg_Bound en, fg_prec, fg_negatable, fg_isQuery, fg_isJoin, fg_fromText, fg_table]
theorem fg_Grp : ∀ (x : Grp) (o : Opts), Grp.sql o (mapGrp forgetNode forgetTable x) = Grp.sql o x
  | .set vs, o => by
    show Grp.sql o (.set (mapExprs forgetNode forgetTable vs)) = _
    simp only [Grp_sql_set, fg_Exprs vs, fg_prec, fg_negatable, fg_isQuery, fg_isJoin, fg_fromText, fg_table]
  | .sets gs, o => by
    show Grp.sql o (.sets (mapLists forgetNode forgetTable gs)) = _
    simp only [Grp_sql_sets, fg_Lists gs, fg_prec, fg_negatable, fg_isQuery, fg_isJoin, fg_fromText, fg_table]
  | .cube vs, o => by
    show Grp.sql o (.cube (mapExprs forgetNode forgetTable vs)) = _
    simp only [Grp_sql_cube, fg_Exprs vs, fg_prec, fg_negatable, fg_isQuery, fg_isJoin, fg_fromText, fg_table]
  | .rollup vs, o => by
    show Grp.sql o (.rollup (mapExprs forgetNode forgetTable vs)) = _
    simp only [Grp_sql_rollup, fg_Exprs vs, fg_prec, fg_negatable, fg_isQuery, fg_isJoin, fg_fromText, fg_table]
theorem fg_GroupBy : ∀ (x : GroupBy) (o : Opts), GroupBy.sql o (mapGroupBy forgetNode forgetTable x) = GroupBy.sql o x
  | .mk gs d, o => by
    show GroupBy.sql o (.mk (mapGrps forgetNode forgetTable gs) d) = _
    simp only [GroupBy_sql_mk, fg_Grps gs, fg_prec, fg_negatable, fg_isQuery, fg_isJoin, fg_fromText, fg_table]
theorem fg_Query : ∀ (x : Query) (o : Opts), Query.sql o (mapQuery forgetNode forgetTable x) = Query.sql o x
  | .mk b off lim ob w, o => by
    show Query.sql o (.mk (mapQBody forgetNode forgetTable b) off lim (mapOrds forgetNode forgetTable ob) (mapNameds forgetNode forgetTable w)) = _
    simp only [Query_sql_mk, fg_QBody b, fg_Ords ob, fg_Nameds w, fg_prec, fg_negatable, fg_isQuery, fg_isJoin, fg_fromText, fg_table]
theorem fg_QBody : ∀ (x : QBody) (o : Opts) (we ce : Except Err Entries), (mapQBody forgetNode forgetTable x).sql o we ce = x.sql o we ce
  | .select items fr wh gb hv d wins, o, we, ce => by
    show QBody.sql o we ce (.select (mapExprs forgetNode forgetTable items) (mapRelOpt forgetNode forgetTable fr) (mapExprOpt forgetNode forgetTable wh) (mapGroupByOpt forgetNode forgetTable gb) (mapExprOpt forgetNode forgetTable hv) d (mapNamedWins forgetNode forgetTable wins)) = _
    simp only [QBody_sql_select, fg_Exprs items, fg_RelOpt fr, fg_ExprOpt wh, fg_GroupByOpt gb, fg_ExprOpt hv, fg_NamedWins wins, fg_prec, fg_negatable, fg_isQuery, fg_isJoin, fg_fromText, fg_table]
  | .set k l r d, o, we, ce => by
    show QBody.sql o we ce (.set k (mapQuery forgetNode forgetTable l) (mapQuery forgetNode forgetTable r) d) = _
    simp only [QBody_sql_set, fg_Query l, fg_Query r, fg_prec, fg_negatable, fg_isQuery, fg_isJoin, fg_fromText, fg_table]
  | .table t, o, we, ce => rfl
  | .values es, o, we, ce => by
    show QBody.sql o we ce (.values (mapExprs forgetNode forgetTable es)) = _
    simp only [QBody_sql_values, fg_Exprs es, fg_prec, fg_negatable, fg_isQuery, fg_isJoin, fg_fromText, fg_table]
theorem fg_Named : ∀ (x : Named) (o : Opts), Named.sql o (mapNamed forgetNode forgetTable x) = Named.sql o x
  | .mk r a cols, o => by
    show Named.sql o (.mk (mapRel forgetNode forgetTable r) a cols) = _
    simp only [Named_sql_mk, fg_Rel r, fg_prec, fg_negatable, fg_isQuery, fg_isJoin, fg_fromText, fg_table]
theorem fg_Rel : ∀ (x : Rel) (o : Opts), Rel.sql o (mapRel forgetNode forgetTable x) = Rel.sql o x
  | .table t, o => rfl
  | .query q, o => by
    show Rel.sql o (.query (mapQuery forgetNode forgetTable q)) = _
    simp only [Rel_sql_query, fg_Query q, fg_prec, fg_negatable, fg_isQuery, fg_isJoin, fg_fromText, fg_table]
  | .aliased n, o => by
    show Rel.sql o (.aliased (mapNamed forgetNode forgetTable n)) = _
    simp only [Rel_sql_aliased, fg_Named n, fg_prec, fg_negatable, fg_isQuery, fg_isJoin, fg_fromText, fg_table]
  | .join l r t nat cr, o => by
    show Rel.sql o (.join (mapRel forgetNode forgetTable l) (mapRel forgetNode forgetTable r) t nat (mapCritOpt forgetNode forgetTable cr)) = _
    simp only [Rel_sql_join, fg_Rel l, fg_Rel r, fg_CritOpt cr, fg_prec, fg_negatable, fg_isQuery, fg_isJoin, fg_fromText, fg_table]
  | .unnest as ord, o => by
    show Rel.sql o (.unnest (mapExprs forgetNode forgetTable as) ord) = _
    simp only [Rel_sql_unnest, fg_Exprs as, fg_prec, fg_negatable, fg_isQuery, fg_isJoin, fg_fromText, fg_table]
  | .lateral q, o => by
    show Rel.sql o (.lateral (mapQuery forgetNode forgetTable q)) = _
    simp only [Rel_sql_lateral, fg_Query q, fg_prec, fg_negatable, fg_isQuery, fg_isJoin, fg_fromText, fg_table]
  | .sample r t p, o => by
    show Rel.sql o (.sample (mapRel forgetNode forgetTable r) t (mapExpr forgetNode forgetTable p)) = _
    simp only [Rel_sql_sample, fg_Rel r, fg_Expr p, fg_prec, fg_negatable, fg_isQuery, fg_isJoin, fg_fromText, fg_table]
theorem fg_Crit : ∀ (x : Crit) (o : Opts), Crit.entries o (mapCrit forgetNode forgetTable x) = Crit.entries o x
  | .using cols, o => rfl
  | .on e, o => by
    show Crit.entries o (.on (mapExpr forgetNode forgetTable e)) = _
    simp only [Crit_entries_on, fg_Expr e, fg_prec, fg_negatable, fg_isQuery, fg_isJoin, fg_fromText, fg_table]
theorem fg_ExprOpt : ∀ (x : Option Expr) (o : Opts), Expr.sqlOpt o (mapExprOpt forgetNode forgetTable x) = Expr.sqlOpt o x
  | none, o => rfl
  | some x, o => by
    show Expr.sqlOpt o (some (mapExpr forgetNode forgetTable x)) = _
    rw [Expr_sqlOpt_some, Expr_sqlOpt_some, fg_Expr x]
theorem fg_Exprs : ∀ (x : List Expr) (o : Opts), Expr.sqls o (mapExprs forgetNode forgetTable x) = Expr.sqls o x
  | [], o => rfl
  | x :: xs, o => by
    show Expr.sqls o ((mapExpr forgetNode forgetTable x) :: (mapExprs forgetNode forgetTable xs)) = _
    simp only [Expr_sqls_cons, fg_Expr x, fg_Exprs xs]
theorem fg_Lists : ∀ (x : List (List Expr)) (o : Opts), Expr.setSqls o (mapLists forgetNode forgetTable x) = Expr.setSqls o x
  | [], o => rfl
  | x :: xs, o => by
    show Expr.setSqls o ((mapExprs forgetNode forgetTable x) :: (mapLists forgetNode forgetTable xs)) = _
    simp only [Expr_setSqls_cons, fg_Exprs x, fg_Lists xs]
theorem fg_Whens : ∀ (x : List (Expr × Expr)) (o : Opts), Expr.whens o (mapWhens forgetNode forgetTable x) = Expr.whens o x
  | [], o => rfl
  | (c, v) :: xs, o => by
    show Expr.whens o (((mapExpr forgetNode forgetTable c), (mapExpr forgetNode forgetTable v)) :: (mapWhens forgetNode forgetTable xs)) = _
    simp only [Expr_whens_cons, fg_Expr c, fg_Expr v, fg_Whens xs]
theorem fg_Ords : ∀ (x : List Ord) (o : Opts), Ord.sqls o (mapOrds forgetNode forgetTable x) = Ord.sqls o x
  | [], o => rfl
  | x :: xs, o => by
    show Ord.sqls o ((mapOrd forgetNode forgetTable x) :: (mapOrds forgetNode forgetTable xs)) = _
    simp only [Ord_sqls_cons, fg_Ord x, fg_Ords xs]
theorem fg_WinOpt : ∀ (x : Option Win) (o : Opts), Win.sqlOpt o (mapWinOpt forgetNode forgetTable x) = Win.sqlOpt o x
  | none, o => rfl
  | some x, o => by
    show Win.sqlOpt o (some (mapWin forgetNode forgetTable x)) = _
    rw [Win_sqlOpt_some, Win_sqlOpt_some, fg_Win x]
theorem fg_Grps : ∀ (x : List Grp) (o : Opts), Grp.sqls o (mapGrps forgetNode forgetTable x) = Grp.sqls o x
  | [], o => rfl
  | x :: xs, o => by
    show Grp.sqls o ((mapGrp forgetNode forgetTable x) :: (mapGrps forgetNode forgetTable xs)) = _
    simp only [Grp_sqls_cons, fg_Grp x, fg_Grps xs]
theorem fg_GroupByOpt : ∀ (x : Option GroupBy) (o : Opts), GroupBy.sqlOpt o (mapGroupByOpt forgetNode forgetTable x) = GroupBy.sqlOpt o x
  | none, o => rfl
  | some x, o => by
    show GroupBy.sqlOpt o (some (mapGroupBy forgetNode forgetTable x)) = _
    rw [GroupBy_sqlOpt_some, GroupBy_sqlOpt_some, fg_GroupBy x]
theorem fg_NamedWins : ∀ (x : List (Str × Win)) (o : Opts), Win.namedSqls o (mapNamedWins forgetNode forgetTable x) = Win.namedSqls o x
  | [], o => rfl
  | (n, w) :: xs, o => by
    show Win.namedSqls o ((n, (mapWin forgetNode forgetTable w)) :: (mapNamedWins forgetNode forgetTable xs)) = _
    simp only [Win_namedSqls_cons, fg_Win w, fg_NamedWins xs]
theorem fg_Nameds : ∀ (x : List Named) (o : Opts), Named.namedSqls o (mapNameds forgetNode forgetTable x) = Named.namedSqls o x
  | [], o => rfl
  | .mk r a cols :: xs, o => by
    show Named.namedSqls o (.mk (mapRel forgetNode forgetTable r) a cols :: (mapNameds forgetNode forgetTable xs)) = _
    simp only [Named_namedSqls_cons, Named_namedSql_mk, fg_Rel r, fg_Nameds xs, fg_prec, fg_negatable, fg_isQuery, fg_isJoin, fg_fromText, fg_table]
theorem fg_RelOpt : ∀ (x : Option Rel) (o : Opts), Rel.sqlOpt o (mapRelOpt forgetNode forgetTable x) = Rel.sqlOpt o x
  | none, o => rfl
  | some x, o => by
    show Rel.sqlOpt o (some (mapRel forgetNode forgetTable x)) = _
    rw [Rel_sqlOpt_some, Rel_sqlOpt_some, fg_Rel x]
theorem fg_CritOpt : ∀ (x : Option Crit) (o : Opts), Crit.entriesOpt o (mapCritOpt forgetNode forgetTable x) = Crit.entriesOpt o x
  | none, o => rfl
  | some x, o => by
    show Crit.entriesOpt o (some (mapCrit forgetNode forgetTable x)) = _
    rw [Crit_entriesOpt_some, Crit_entriesOpt_some, fg_Crit x]
end

end Treeno
