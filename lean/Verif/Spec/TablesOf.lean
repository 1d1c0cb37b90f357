import Verif.Ast
/-!
# The tables of a tree

Every table that occurs in a tree, from left to right.
-/
set_option autoImplicit false
namespace Treeno.Spec

mutual
def tabsExpr : Expr → List TableRef
  | .lit _ _ => []
  | .field _ _ _ => []
  | .fieldOf _ b _ => tabsExpr b
  | .alias v _ => tabsExpr v
  | .star _ _ => []
  | .starOf b _ => tabsExpr b
  | .aliasedStar s _ => tabsExpr s
  | .var _ => []
  | .lam _ b => tabsExpr b
  | .un _ v => tabsExpr v
  | .bin _ l r => tabsExpr l ++ tabsExpr r
  | .not v => tabsExpr v
  | .isNull v => tabsExpr v
  | .between v l u => tabsExpr v ++ (tabsExpr l ++ tabsExpr u)
  | .array vs => tabsExprs vs
  | .inQuery v q => tabsExpr v ++ tabsQuery q
  | .inList v es => tabsExpr v ++ tabsExprs es
  | .like v p e => tabsExpr v ++ (tabsExpr p ++ tabsExprOpt e)
  | .typeCtor _ _ => []
  | .row vs => tabsExprs vs
  | .interval _ _ _ => []
  | .cast _ e _ => tabsExpr e
  | .subscript v i => tabsExpr v ++ tabsExpr i
  | .case v bs e => tabsExprOpt v ++ (tabsWhens bs ++ tabsExprOpt e)
  | .func _ as => tabsExprs as
  | .agg _ as ob fl w _ => tabsExprs as ++ (tabsOrds ob ++ (tabsExprOpt fl ++ tabsWinOpt w))
  | .listagg v _ _ ob => tabsExpr v ++ tabsOrds ob
  | .curTime _ _ => []
  | .session _ => []
  | .normalize v _ => tabsExpr v
  | .query q => tabsQuery q
def tabsOrd : Ord → List TableRef
  | .mk v _ _ => tabsExpr v
def tabsBound : Bound → List TableRef
  | .bounded _ e => tabsExpr e
  | .unbounded _ => []
  | .current => []
def tabsWin : Win → List TableRef
  | .mk _ ob ps _ st en => tabsOrds ob ++ (tabsExprs ps ++ (tabsBound st ++ tabsBound en))
def tabsGrp : Grp → List TableRef
  | .set vs => tabsExprs vs
  | .sets gs => tabsLists gs
  | .cube vs => tabsExprs vs
  | .rollup vs => tabsExprs vs
def tabsGroupBy : GroupBy → List TableRef
  | .mk gs _ => tabsGrps gs
def tabsQuery : Query → List TableRef
  | .mk b _ _ ob w => tabsQBody b ++ (tabsOrds ob ++ tabsNameds w)
def tabsQBody : QBody → List TableRef
  | .select items fr wh gb hv _ wins => tabsExprs items ++ (tabsRelOpt fr ++ (tabsExprOpt wh ++ (tabsGroupByOpt gb ++ (tabsExprOpt hv ++ tabsNamedWins wins))))
  | .set _ l r _ => tabsQuery l ++ tabsQuery r
  | .table t => [t]
  | .values es => tabsExprs es
def tabsNamed : Named → List TableRef
  | .mk r _ _ => tabsRel r
def tabsRel : Rel → List TableRef
  | .table t => [t]
  | .query q => tabsQuery q
  | .aliased n => tabsNamed n
  | .join l r _ _ cr => tabsRel l ++ (tabsRel r ++ tabsCritOpt cr)
  | .unnest as _ => tabsExprs as
  | .lateral q => tabsQuery q
  | .sample r _ p => tabsRel r ++ tabsExpr p
def tabsCrit : Crit → List TableRef
  | .using _ => []
  | .on e => tabsExpr e
def tabsExprOpt : Option Expr → List TableRef
  | none => []
  | some x => tabsExpr x
def tabsExprs : List Expr → List TableRef
  | [] => []
  | x :: xs => tabsExpr x ++ tabsExprs xs
def tabsLists : List (List Expr) → List TableRef
  | [] => []
  | x :: xs => tabsExprs x ++ tabsLists xs
def tabsWhens : List (Expr × Expr) → List TableRef
  | [] => []
  | (c, v) :: xs => tabsExpr c ++ (tabsExpr v ++ tabsWhens xs)
def tabsOrds : List Ord → List TableRef
  | [] => []
  | x :: xs => tabsOrd x ++ tabsOrds xs
def tabsWinOpt : Option Win → List TableRef
  | none => []
  | some x => tabsWin x
def tabsGrps : List Grp → List TableRef
  | [] => []
  | x :: xs => tabsGrp x ++ tabsGrps xs
def tabsGroupByOpt : Option GroupBy → List TableRef
  | none => []
  | some x => tabsGroupBy x
def tabsNamedWins : List (Str × Win) → List TableRef
  | [] => []
  | (_, w) :: xs => tabsWin w ++ tabsNamedWins xs
def tabsNameds : List Named → List TableRef
  | [] => []
  | x :: xs => tabsNamed x ++ tabsNameds xs
def tabsRelOpt : Option Rel → List TableRef
  | none => []
  | some x => tabsRel x
def tabsCritOpt : Option Crit → List TableRef
  | none => []
  | some x => tabsCrit x
end

end Treeno.Spec
