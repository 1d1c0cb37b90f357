import Verif.Spec.LitsOf
import Verif.Spec.TreeMap
import Verif.Spec.Schemas
/-! # Changing columns, stars and tables does not change the constants -/
set_option linter.unusedVariables false
namespace Treeno
open Spec

theorem app2 {α} {a b c d : List α} (h : a = b) (k : c = d) : a ++ c = b ++ d := by rw [h, k]

mutual
theorem lm_Expr {g : Expr → Expr} (hg : ∀ e, litsExpr (g e) = litsExpr e) (tg : TableRef → TableRef) : ∀ x : Expr, litsExpr (mapExpr g tg x) = litsExpr x
  | .lit v t => hg _
  | .field n tn t => hg _
  | .fieldOf n b t => (hg _).trans (lm_Expr hg tg b)
  | .alias v n => (hg _).trans (lm_Expr hg tg v)
  | .star tn t => hg _
  | .starOf b t => (hg _).trans (lm_Expr hg tg b)
  | .aliasedStar s as => (hg _).trans (lm_Expr hg tg s)
  | .var n => hg _
  | .lam ins b => (hg _).trans (lm_Expr hg tg b)
  | .un op v => (hg _).trans (lm_Expr hg tg v)
  | .bin op l r => (hg _).trans (app2 (lm_Expr hg tg l) (lm_Expr hg tg r))
  | .not v => (hg _).trans (lm_Expr hg tg v)
  | .isNull v => (hg _).trans (lm_Expr hg tg v)
  | .between v l u => (hg _).trans (app2 (lm_Expr hg tg v) (app2 (lm_Expr hg tg l) (lm_Expr hg tg u)))
  | .array vs => (hg _).trans (lm_Exprs hg tg vs)
  | .inQuery v q => (hg _).trans (app2 (lm_Expr hg tg v) (lm_Query hg tg q))
  | .inList v es => (hg _).trans (app2 (lm_Expr hg tg v) (lm_Exprs hg tg es))
  | .like v p e => (hg _).trans (app2 (lm_Expr hg tg v) (app2 (lm_Expr hg tg p) (lm_ExprOpt hg tg e)))
  | .typeCtor v t => hg _
  | .row vs => (hg _).trans (lm_Exprs hg tg vs)
  | .interval v f t => hg _
  | .cast tr e t => (hg _).trans (lm_Expr hg tg e)
  | .subscript v i => (hg _).trans (app2 (lm_Expr hg tg v) (lm_Expr hg tg i))
  | .case v bs e => (hg _).trans (app2 (lm_ExprOpt hg tg v) (app2 (lm_Whens hg tg bs) (lm_ExprOpt hg tg e)))
  | .func f as => (hg _).trans (lm_Exprs hg tg as)
  | .agg f as ob fl w ign => (hg _).trans (app2 (lm_Exprs hg tg as) (app2 (lm_Ords hg tg ob) (app2 (lm_ExprOpt hg tg fl) (lm_WinOpt hg tg w))))
  | .listagg v sep ov ob => (hg _).trans (app2 (lm_Expr hg tg v) (lm_Ords hg tg ob))
  | .curTime f p => hg _
  | .session f => hg _
  | .normalize v fo => (hg _).trans (lm_Expr hg tg v)
  | .query q => (hg _).trans (lm_Query hg tg q)
theorem lm_Ord {g : Expr → Expr} (hg : ∀ e, litsExpr (g e) = litsExpr e) (tg : TableRef → TableRef) : ∀ x : Ord, litsOrd (mapOrd g tg x) = litsOrd x
  | .mk v d nf => lm_Expr hg tg v
theorem lm_Bound {g : Expr → Expr} (hg : ∀ e, litsExpr (g e) = litsExpr e) (tg : TableRef → TableRef) : ∀ x : Bound, litsBound (mapBound g tg x) = litsBound x
  | .bounded t e => lm_Expr hg tg e
  | .unbounded t => rfl
  | .current => rfl
theorem lm_Win {g : Expr → Expr} (hg : ∀ e, litsExpr (g e) = litsExpr e) (tg : TableRef → TableRef) : ∀ x : Win, litsWin (mapWin g tg x) = litsWin x
  | .mk p ob ps f st en => app2 (lm_Ords hg tg ob) (app2 (lm_Exprs hg tg ps) (app2 (lm_Bound hg tg st) (lm_Bound hg tg en)))
theorem lm_Grp {g : Expr → Expr} (hg : ∀ e, litsExpr (g e) = litsExpr e) (tg : TableRef → TableRef) : ∀ x : Grp, litsGrp (mapGrp g tg x) = litsGrp x
  | .set vs => lm_Exprs hg tg vs
  | .sets gs => lm_Lists hg tg gs
  | .cube vs => lm_Exprs hg tg vs
  | .rollup vs => lm_Exprs hg tg vs
theorem lm_GroupBy {g : Expr → Expr} (hg : ∀ e, litsExpr (g e) = litsExpr e) (tg : TableRef → TableRef) : ∀ x : GroupBy, litsGroupBy (mapGroupBy g tg x) = litsGroupBy x
  | .mk gs d => lm_Grps hg tg gs
theorem lm_Query {g : Expr → Expr} (hg : ∀ e, litsExpr (g e) = litsExpr e) (tg : TableRef → TableRef) : ∀ x : Query, litsQuery (mapQuery g tg x) = litsQuery x
  | .mk b off lim ob w => app2 (lm_QBody hg tg b) (app2 (lm_Ords hg tg ob) (lm_Nameds hg tg w))
theorem lm_QBody {g : Expr → Expr} (hg : ∀ e, litsExpr (g e) = litsExpr e) (tg : TableRef → TableRef) : ∀ x : QBody, litsQBody (mapQBody g tg x) = litsQBody x
  | .select items fr wh gb hv d wins => app2 (lm_Exprs hg tg items) (app2 (lm_RelOpt hg tg fr) (app2 (lm_ExprOpt hg tg wh) (app2 (lm_GroupByOpt hg tg gb) (app2 (lm_ExprOpt hg tg hv) (lm_NamedWins hg tg wins)))))
  | .set k l r d => app2 (lm_Query hg tg l) (lm_Query hg tg r)
  | .table t => rfl
  | .values es => lm_Exprs hg tg es
theorem lm_Named {g : Expr → Expr} (hg : ∀ e, litsExpr (g e) = litsExpr e) (tg : TableRef → TableRef) : ∀ x : Named, litsNamed (mapNamed g tg x) = litsNamed x
  | .mk r a cols => lm_Rel hg tg r
theorem lm_Rel {g : Expr → Expr} (hg : ∀ e, litsExpr (g e) = litsExpr e) (tg : TableRef → TableRef) : ∀ x : Rel, litsRel (mapRel g tg x) = litsRel x
  | .table t => rfl
  | .query q => lm_Query hg tg q
  | .aliased n => lm_Named hg tg n
  | .join l r t nat cr => app2 (lm_Rel hg tg l) (app2 (lm_Rel hg tg r) (lm_CritOpt hg tg cr))
  | .unnest as ord => lm_Exprs hg tg as
  | .lateral q => lm_Query hg tg q
  | .sample r t p => app2 (lm_Rel hg tg r) (lm_Expr hg tg p)
theorem lm_Crit {g : Expr → Expr} (hg : ∀ e, litsExpr (g e) = litsExpr e) (tg : TableRef → TableRef) : ∀ x : Crit, litsCrit (mapCrit g tg x) = litsCrit x
  | .using cols => rfl
  | .on e => lm_Expr hg tg e
theorem lm_ExprOpt {g : Expr → Expr} (hg : ∀ e, litsExpr (g e) = litsExpr e) (tg : TableRef → TableRef) : ∀ x : Option Expr, litsExprOpt (mapExprOpt g tg x) = litsExprOpt x
  | none => rfl
  | some x => lm_Expr hg tg x
theorem lm_Exprs {g : Expr → Expr} (hg : ∀ e, litsExpr (g e) = litsExpr e) (tg : TableRef → TableRef) : ∀ x : List Expr, litsExprs (mapExprs g tg x) = litsExprs x
  | [] => rfl
  | x :: xs => app2 (lm_Expr hg tg x) (lm_Exprs hg tg xs)
theorem lm_Lists {g : Expr → Expr} (hg : ∀ e, litsExpr (g e) = litsExpr e) (tg : TableRef → TableRef) : ∀ x : List (List Expr), litsLists (mapLists g tg x) = litsLists x
  | [] => rfl
  | x :: xs => app2 (lm_Exprs hg tg x) (lm_Lists hg tg xs)
theorem lm_Whens {g : Expr → Expr} (hg : ∀ e, litsExpr (g e) = litsExpr e) (tg : TableRef → TableRef) : ∀ x : List (Expr × Expr), litsWhens (mapWhens g tg x) = litsWhens x
  | [] => rfl
  | (c, v) :: xs => app2 (lm_Expr hg tg c) (app2 (lm_Expr hg tg v) (lm_Whens hg tg xs))
theorem lm_Ords {g : Expr → Expr} (hg : ∀ e, litsExpr (g e) = litsExpr e) (tg : TableRef → TableRef) : ∀ x : List Ord, litsOrds (mapOrds g tg x) = litsOrds x
  | [] => rfl
  | x :: xs => app2 (lm_Ord hg tg x) (lm_Ords hg tg xs)
theorem lm_WinOpt {g : Expr → Expr} (hg : ∀ e, litsExpr (g e) = litsExpr e) (tg : TableRef → TableRef) : ∀ x : Option Win, litsWinOpt (mapWinOpt g tg x) = litsWinOpt x
  | none => rfl
  | some x => lm_Win hg tg x
theorem lm_Grps {g : Expr → Expr} (hg : ∀ e, litsExpr (g e) = litsExpr e) (tg : TableRef → TableRef) : ∀ x : List Grp, litsGrps (mapGrps g tg x) = litsGrps x
  | [] => rfl
  | x :: xs => app2 (lm_Grp hg tg x) (lm_Grps hg tg xs)
theorem lm_GroupByOpt {g : Expr → Expr} (hg : ∀ e, litsExpr (g e) = litsExpr e) (tg : TableRef → TableRef) : ∀ x : Option GroupBy, litsGroupByOpt (mapGroupByOpt g tg x) = litsGroupByOpt x
  | none => rfl
  | some x => lm_GroupBy hg tg x
theorem lm_NamedWins {g : Expr → Expr} (hg : ∀ e, litsExpr (g e) = litsExpr e) (tg : TableRef → TableRef) : ∀ x : List (Str × Win), litsNamedWins (mapNamedWins g tg x) = litsNamedWins x
  | [] => rfl
  | (n, w) :: xs => app2 (lm_Win hg tg w) (lm_NamedWins hg tg xs)
theorem lm_Nameds {g : Expr → Expr} (hg : ∀ e, litsExpr (g e) = litsExpr e) (tg : TableRef → TableRef) : ∀ x : List Named, litsNameds (mapNameds g tg x) = litsNameds x
  | [] => rfl
  | x :: xs => app2 (lm_Named hg tg x) (lm_Nameds hg tg xs)
theorem lm_RelOpt {g : Expr → Expr} (hg : ∀ e, litsExpr (g e) = litsExpr e) (tg : TableRef → TableRef) : ∀ x : Option Rel, litsRelOpt (mapRelOpt g tg x) = litsRelOpt x
  | none => rfl
  | some x => lm_Rel hg tg x
theorem lm_CritOpt {g : Expr → Expr} (hg : ∀ e, litsExpr (g e) = litsExpr e) (tg : TableRef → TableRef) : ∀ x : Option Crit, litsCritOpt (mapCritOpt g tg x) = litsCritOpt x
  | none => rfl
  | some x => lm_Crit hg tg x
end

theorem forget_lits : ∀ e, litsExpr (forgetNode e) = litsExpr e := by intro e; cases e <;> rfl
theorem bind_lits (ins : List Str) : ∀ e, litsExpr (bindNode ins e) = litsExpr e := by
  intro e
  cases e with
  | field n t ty =>
    cases t with
    | none =>
      show litsExpr (if n ∈ ins then Expr.var n else .field n none ty) = _
      split <;> rfl
    | some t => rfl
  | _ => rfl

end Treeno
