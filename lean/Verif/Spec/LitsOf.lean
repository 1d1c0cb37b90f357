import Verif.Ast
/-!
# The constants of a tree

Every constant that occurs in a tree as a `Literal`, with the type it is given, from left to right.
-/
set_option autoImplicit false
namespace Treeno.Spec

mutual
def litsExpr : Expr → List (Option Scalar × Ty)
  | .lit v t => [(v, t)]
  | .field _ _ _ => []
  | .fieldOf _ b _ => litsExpr b
  | .alias v _ => litsExpr v
  | .star _ _ => []
  | .starOf b _ => litsExpr b
  | .aliasedStar s _ => litsExpr s
  | .var _ => []
  | .lam _ b => litsExpr b
  | .un _ v => litsExpr v
  | .bin _ l r => litsExpr l ++ litsExpr r
  | .not v => litsExpr v
  | .isNull v => litsExpr v
  | .between v l u => litsExpr v ++ (litsExpr l ++ litsExpr u)
  | .array vs => litsExprs vs
  | .inQuery v q => litsExpr v ++ litsQuery q
  | .inList v es => litsExpr v ++ litsExprs es
  | .like v p e => litsExpr v ++ (litsExpr p ++ litsExprOpt e)
  | .typeCtor _ _ => []
  | .row vs => litsExprs vs
  | .interval _ _ _ => []
  | .cast _ e _ => litsExpr e
  | .subscript v i => litsExpr v ++ litsExpr i
  | .case v bs e => litsExprOpt v ++ (litsWhens bs ++ litsExprOpt e)
  | .func _ as => litsExprs as
  | .agg _ as ob fl w _ => litsExprs as ++ (litsOrds ob ++ (litsExprOpt fl ++ litsWinOpt w))
  | .listagg v _ _ ob => litsExpr v ++ litsOrds ob
  | .curTime _ _ => []
  | .session _ => []
  | .normalize v _ => litsExpr v
  | .query q => litsQuery q
def litsOrd : Ord → List (Option Scalar × Ty)
  | .mk v _ _ => litsExpr v
def litsBound : Bound → List (Option Scalar × Ty)
  | .bounded _ e => litsExpr e
  | .unbounded _ => []
  | .current => []
def litsWin : Win → List (Option Scalar × Ty)
  | .mk _ ob ps _ st en => litsOrds ob ++ (litsExprs ps ++ (litsBound st ++ litsBound en))
def litsGrp : Grp → List (Option Scalar × Ty)
  | .set vs => litsExprs vs
  | .sets gs => litsLists gs
  | .cube vs => litsExprs vs
  | .rollup vs => litsExprs vs
def litsGroupBy : GroupBy → List (Option Scalar × Ty)
  | .mk gs _ => litsGrps gs
def litsQuery : Query → List (Option Scalar × Ty)
  | .mk b _ _ ob w => litsQBody b ++ (litsOrds ob ++ litsNameds w)
def litsQBody : QBody → List (Option Scalar × Ty)
  | .select items fr wh gb hv _ wins => litsExprs items ++ (litsRelOpt fr ++ (litsExprOpt wh ++ (litsGroupByOpt gb ++ (litsExprOpt hv ++ litsNamedWins wins))))
  | .set _ l r _ => litsQuery l ++ litsQuery r
  | .table _ => []
  | .values es => litsExprs es
def litsNamed : Named → List (Option Scalar × Ty)
  | .mk r _ _ => litsRel r
def litsRel : Rel → List (Option Scalar × Ty)
  | .table _ => []
  | .query q => litsQuery q
  | .aliased n => litsNamed n
  | .join l r _ _ cr => litsRel l ++ (litsRel r ++ litsCritOpt cr)
  | .unnest as _ => litsExprs as
  | .lateral q => litsQuery q
  | .sample r _ p => litsRel r ++ litsExpr p
def litsCrit : Crit → List (Option Scalar × Ty)
  | .using _ => []
  | .on e => litsExpr e
def litsExprOpt : Option Expr → List (Option Scalar × Ty)
  | none => []
  | some x => litsExpr x
def litsExprs : List Expr → List (Option Scalar × Ty)
  | [] => []
  | x :: xs => litsExpr x ++ litsExprs xs
def litsLists : List (List Expr) → List (Option Scalar × Ty)
  | [] => []
  | x :: xs => litsExprs x ++ litsLists xs
def litsWhens : List (Expr × Expr) → List (Option Scalar × Ty)
  | [] => []
  | (c, v) :: xs => litsExpr c ++ (litsExpr v ++ litsWhens xs)
def litsOrds : List Ord → List (Option Scalar × Ty)
  | [] => []
  | x :: xs => litsOrd x ++ litsOrds xs
def litsWinOpt : Option Win → List (Option Scalar × Ty)
  | none => []
  | some x => litsWin x
def litsGrps : List Grp → List (Option Scalar × Ty)
  | [] => []
  | x :: xs => litsGrp x ++ litsGrps xs
def litsGroupByOpt : Option GroupBy → List (Option Scalar × Ty)
  | none => []
  | some x => litsGroupBy x
def litsNamedWins : List (Str × Win) → List (Option Scalar × Ty)
  | [] => []
  | (_, w) :: xs => litsWin w ++ litsNamedWins xs
def litsNameds : List Named → List (Option Scalar × Ty)
  | [] => []
  | x :: xs => litsNamed x ++ litsNameds xs
def litsRelOpt : Option Rel → List (Option Scalar × Ty)
  | none => []
  | some x => litsRel x
def litsCritOpt : Option Crit → List (Option Scalar × Ty)
  | none => []
  | some x => litsCrit x
end

/-- The type is one that a constant of this kind has: the types that `infer_type` gives, treeno/datatypes/inference.py
20-39, with any precision or length. -/
def ofKind : Scalar → Ty → Bool
  | .bool _, .simple .boolean => true
  | .int _, .simple .integer => true
  | .int _, .simple .bigint => true
  | .float _, .simple .double => true
  | .dec _, .decimal _ _ => true
  | .str _, .varchar _ => true
  | _, _ => false

/-- Every constant has a type of its kind; NULL may have any type. -/
def Typed (l : List (Option Scalar × Ty)) : Prop := ∀ p ∈ l, ∀ v, p.1 = some v → ofKind v p.2 = true

end Treeno.Spec
