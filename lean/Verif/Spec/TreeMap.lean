import Verif.Ast
/-!
# Changing a tree node by node

`mapExpr g tg e` applies `g` to every expression node of `e`, innermost first, and `tg` to every table;
everything else stays.  Specifications are stated with it (forgetting types, binding variables).
-/
namespace Treeno.Spec

mutual
def mapExpr (g : Expr → Expr) (tg : TableRef → TableRef) : Expr → Expr
  | .lit v t => g (.lit v t)
  | .field n tn t => g (.field n tn t)
  | .fieldOf n b t => g (.fieldOf n (mapExpr g tg b) t)
  | .alias v n => g (.alias (mapExpr g tg v) n)
  | .star tn t => g (.star tn t)
  | .starOf b t => g (.starOf (mapExpr g tg b) t)
  | .aliasedStar s as => g (.aliasedStar (mapExpr g tg s) as)
  | .var n => g (.var n)
  | .lam ins b => g (.lam ins (mapExpr g tg b))
  | .un op v => g (.un op (mapExpr g tg v))
  | .bin op l r => g (.bin op (mapExpr g tg l) (mapExpr g tg r))
  | .not v => g (.not (mapExpr g tg v))
  | .isNull v => g (.isNull (mapExpr g tg v))
  | .between v l u => g (.between (mapExpr g tg v) (mapExpr g tg l) (mapExpr g tg u))
  | .array vs => g (.array (mapExprs g tg vs))
  | .inQuery v q => g (.inQuery (mapExpr g tg v) (mapQuery g tg q))
  | .inList v es => g (.inList (mapExpr g tg v) (mapExprs g tg es))
  | .like v p e => g (.like (mapExpr g tg v) (mapExpr g tg p) (mapExprOpt g tg e))
  | .typeCtor v t => g (.typeCtor v t)
  | .row vs => g (.row (mapExprs g tg vs))
  | .interval v f t => g (.interval v f t)
  | .cast tr e t => g (.cast tr (mapExpr g tg e) t)
  | .subscript v i => g (.subscript (mapExpr g tg v) (mapExpr g tg i))
  | .case v bs e => g (.case (mapExprOpt g tg v) (mapWhens g tg bs) (mapExprOpt g tg e))
  | .func f as => g (.func f (mapExprs g tg as))
  | .agg f as ob fl w ign => g (.agg f (mapExprs g tg as) (mapOrds g tg ob) (mapExprOpt g tg fl) (mapWinOpt g tg w) ign)
  | .listagg v sep ov ob => g (.listagg (mapExpr g tg v) sep ov (mapOrds g tg ob))
  | .curTime f p => g (.curTime f p)
  | .session f => g (.session f)
  | .normalize v fo => g (.normalize (mapExpr g tg v) fo)
  | .query q => g (.query (mapQuery g tg q))
def mapOrd (g : Expr → Expr) (tg : TableRef → TableRef) : Ord → Ord
  | .mk v d nf => .mk (mapExpr g tg v) d nf
def mapBound (g : Expr → Expr) (tg : TableRef → TableRef) : Bound → Bound
  | .bounded t e => .bounded t (mapExpr g tg e)
  | .unbounded t => .unbounded t
  | .current => .current
def mapWin (g : Expr → Expr) (tg : TableRef → TableRef) : Win → Win
  | .mk p ob ps f st en => .mk p (mapOrds g tg ob) (mapExprs g tg ps) f (mapBound g tg st) (mapBound g tg en)
def mapGrp (g : Expr → Expr) (tg : TableRef → TableRef) : Grp → Grp
  | .set vs => .set (mapExprs g tg vs)
  | .sets gs => .sets (mapLists g tg gs)
  | .cube vs => .cube (mapExprs g tg vs)
  | .rollup vs => .rollup (mapExprs g tg vs)
def mapGroupBy (g : Expr → Expr) (tg : TableRef → TableRef) : GroupBy → GroupBy
  | .mk gs d => .mk (mapGrps g tg gs) d
def mapQuery (g : Expr → Expr) (tg : TableRef → TableRef) : Query → Query
  | .mk b off lim ob w => .mk (mapQBody g tg b) off lim (mapOrds g tg ob) (mapNameds g tg w)
def mapQBody (g : Expr → Expr) (tg : TableRef → TableRef) : QBody → QBody
  | .select items fr wh gb hv d wins => .select (mapExprs g tg items) (mapRelOpt g tg fr) (mapExprOpt g tg wh) (mapGroupByOpt g tg gb) (mapExprOpt g tg hv) d (mapNamedWins g tg wins)
  | .set k l r d => .set k (mapQuery g tg l) (mapQuery g tg r) d
  | .table t => .table (tg t)
  | .values es => .values (mapExprs g tg es)
def mapNamed (g : Expr → Expr) (tg : TableRef → TableRef) : Named → Named
  | .mk r a cols => .mk (mapRel g tg r) a cols
def mapRel (g : Expr → Expr) (tg : TableRef → TableRef) : Rel → Rel
  | .table t => .table (tg t)
  | .query q => .query (mapQuery g tg q)
  | .aliased n => .aliased (mapNamed g tg n)
  | .join l r t nat cr => .join (mapRel g tg l) (mapRel g tg r) t nat (mapCritOpt g tg cr)
  | .unnest as ord => .unnest (mapExprs g tg as) ord
  | .lateral q => .lateral (mapQuery g tg q)
  | .sample r t p => .sample (mapRel g tg r) t (mapExpr g tg p)
def mapCrit (g : Expr → Expr) (tg : TableRef → TableRef) : Crit → Crit
  | .using cols => .using cols
  | .on e => .on (mapExpr g tg e)
def mapExprOpt (g : Expr → Expr) (tg : TableRef → TableRef) : Option Expr → Option Expr
  | none => none
  | some x => some (mapExpr g tg x)
def mapExprs (g : Expr → Expr) (tg : TableRef → TableRef) : List Expr → List Expr
  | [] => []
  | x :: xs => (mapExpr g tg x) :: (mapExprs g tg xs)
def mapLists (g : Expr → Expr) (tg : TableRef → TableRef) : List (List Expr) → List (List Expr)
  | [] => []
  | x :: xs => (mapExprs g tg x) :: (mapLists g tg xs)
def mapWhens (g : Expr → Expr) (tg : TableRef → TableRef) : List (Expr × Expr) → List (Expr × Expr)
  | [] => []
  | (c, v) :: xs => ((mapExpr g tg c), (mapExpr g tg v)) :: (mapWhens g tg xs)
def mapOrds (g : Expr → Expr) (tg : TableRef → TableRef) : List Ord → List Ord
  | [] => []
  | x :: xs => (mapOrd g tg x) :: (mapOrds g tg xs)
def mapWinOpt (g : Expr → Expr) (tg : TableRef → TableRef) : Option Win → Option Win
  | none => none
  | some x => some (mapWin g tg x)
def mapGrps (g : Expr → Expr) (tg : TableRef → TableRef) : List Grp → List Grp
  | [] => []
  | x :: xs => (mapGrp g tg x) :: (mapGrps g tg xs)
def mapGroupByOpt (g : Expr → Expr) (tg : TableRef → TableRef) : Option GroupBy → Option GroupBy
  | none => none
  | some x => some (mapGroupBy g tg x)
def mapNamedWins (g : Expr → Expr) (tg : TableRef → TableRef) : List (Str × Win) → List (Str × Win)
  | [] => []
  | (n, w) :: xs => (n, (mapWin g tg w)) :: (mapNamedWins g tg xs)
def mapNameds (g : Expr → Expr) (tg : TableRef → TableRef) : List Named → List Named
  | [] => []
  | x :: xs => (mapNamed g tg x) :: (mapNameds g tg xs)
def mapRelOpt (g : Expr → Expr) (tg : TableRef → TableRef) : Option Rel → Option Rel
  | none => none
  | some x => some (mapRel g tg x)
def mapCritOpt (g : Expr → Expr) (tg : TableRef → TableRef) : Option Crit → Option Crit
  | none => none
  | some x => some (mapCrit g tg x)
end

end Treeno.Spec
