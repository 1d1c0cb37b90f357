import Verif.Ast
/-!
# The column references of a tree, from left to right

The base of `<value>.name` and `<value>.*` is not entered.
-/
namespace Treeno.Spec

/-- A column reference with a string or no table. -/
structure Column where
  name : Str
  table : Option Str
  ty : Ty
  deriving DecidableEq, Repr

mutual
def colsExpr : Expr → List Column
  | .lit _ _ => []
  | .field n tn t => [⟨n, tn, t⟩]
  | .fieldOf _ _ _ => []
  | .alias v _ => colsExpr v
  | .star _ _ => []
  | .starOf _ _ => []
  | .aliasedStar s _ => colsExpr s
  | .var _ => []
  | .lam _ b => colsExpr b
  | .un _ v => colsExpr v
  | .bin _ l r => colsExpr l ++ colsExpr r
  | .not v => colsExpr v
  | .isNull v => colsExpr v
  | .between v l u => colsExpr v ++ colsExpr l ++ colsExpr u
  | .array vs => colsExprs vs
  | .inQuery v q => colsExpr v ++ colsQuery q
  | .inList v es => colsExpr v ++ colsExprs es
  | .like v p e => colsExpr v ++ colsExpr p ++ colsExprOpt e
  | .typeCtor _ _ => []
  | .row vs => colsExprs vs
  | .interval _ _ _ => []
  | .cast _ e _ => colsExpr e
  | .subscript v i => colsExpr v ++ colsExpr i
  | .case v bs e => colsExprOpt v ++ colsWhens bs ++ colsExprOpt e
  | .func _ as => colsExprs as
  | .agg _ as ob fl w _ => colsExprs as ++ colsOrds ob ++ colsExprOpt fl ++ colsWinOpt w
  | .listagg v _ _ ob => colsExpr v ++ colsOrds ob
  | .curTime _ _ => []
  | .session _ => []
  | .normalize v _ => colsExpr v
  | .query q => colsQuery q
def colsOrd : Ord → List Column
  | .mk v _ _ => colsExpr v
def colsBound : Bound → List Column
  | .bounded _ e => colsExpr e
  | .unbounded _ => []
  | .current => []
def colsWin : Win → List Column
  | .mk _ ob ps _ st en => colsOrds ob ++ colsExprs ps ++ colsBound st ++ colsBound en
def colsGrp : Grp → List Column
  | .set vs => colsExprs vs
  | .sets gs => colsLists gs
  | .cube vs => colsExprs vs
  | .rollup vs => colsExprs vs
def colsGroupBy : GroupBy → List Column
  | .mk gs _ => colsGrps gs
def colsQuery : Query → List Column
  | .mk b _ _ ob w => colsQBody b ++ colsOrds ob ++ colsNameds w
def colsQBody : QBody → List Column
  | .select items fr wh gb hv _ wins => colsExprs items ++ colsRelOpt fr ++ colsExprOpt wh ++ colsGroupByOpt gb ++ colsExprOpt hv ++ colsNamedWins wins
  | .set _ l r _ => colsQuery l ++ colsQuery r
  | .table _ => []
  | .values es => colsExprs es
def colsNamed : Named → List Column
  | .mk r _ _ => colsRel r
def colsRel : Rel → List Column
  | .table _ => []
  | .query q => colsQuery q
  | .aliased n => colsNamed n
  | .join l r _ _ cr => colsRel l ++ colsRel r ++ colsCritOpt cr
  | .unnest as _ => colsExprs as
  | .lateral q => colsQuery q
  | .sample r _ p => colsRel r ++ colsExpr p
def colsCrit : Crit → List Column
  | .using _ => []
  | .on e => colsExpr e
def colsExprOpt : Option Expr → List Column
  | none => []
  | some x => colsExpr x
def colsExprs : List Expr → List Column
  | [] => []
  | x :: xs => colsExpr x ++ colsExprs xs
def colsLists : List (List Expr) → List Column
  | [] => []
  | x :: xs => colsExprs x ++ colsLists xs
def colsWhens : List (Expr × Expr) → List Column
  | [] => []
  | (c, v) :: xs => colsExpr c ++ colsExpr v ++ colsWhens xs
def colsOrds : List Ord → List Column
  | [] => []
  | x :: xs => colsOrd x ++ colsOrds xs
def colsWinOpt : Option Win → List Column
  | none => []
  | some x => colsWin x
def colsGrps : List Grp → List Column
  | [] => []
  | x :: xs => colsGrp x ++ colsGrps xs
def colsGroupByOpt : Option GroupBy → List Column
  | none => []
  | some x => colsGroupBy x
def colsNamedWins : List (Str × Win) → List Column
  | [] => []
  | (_, w) :: xs => colsWin w ++ colsNamedWins xs
def colsNameds : List Named → List Column
  | [] => []
  | x :: xs => colsNamed x ++ colsNameds xs
def colsRelOpt : Option Rel → List Column
  | none => []
  | some x => colsRel x
def colsCritOpt : Option Crit → List Column
  | none => []
  | some x => colsCrit x
end

end Treeno.Spec
