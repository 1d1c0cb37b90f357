import Verif.Ast
/-!
# Dicts have distinct keys

The only dict in a query tree is the attribute `window` of a `SelectQuery`, a list of pairs in the model.
`e.Dicts`: in every SELECT inside `e` the named windows have distinct names.
-/
set_option autoImplicit false
namespace Treeno

mutual
def Expr.Dicts : Expr → Prop
  | .lit _ _ => True
  | .field _ _ _ => True
  | .fieldOf _ b _ => Expr.Dicts b
  | .alias v _ => Expr.Dicts v
  | .star _ _ => True
  | .starOf b _ => Expr.Dicts b
  | .aliasedStar s _ => Expr.Dicts s
  | .var _ => True
  | .lam _ b => Expr.Dicts b
  | .un _ v => Expr.Dicts v
  | .bin _ l r => Expr.Dicts l ∧ Expr.Dicts r
  | .not v => Expr.Dicts v
  | .isNull v => Expr.Dicts v
  | .between v l u => Expr.Dicts v ∧ Expr.Dicts l ∧ Expr.Dicts u
  | .array vs => Expr.DictsAll vs
  | .inQuery v q => Expr.Dicts v ∧ Query.Dicts q
  | .inList v es => Expr.Dicts v ∧ Expr.DictsAll es
  | .like v p e => Expr.Dicts v ∧ Expr.Dicts p ∧ Expr.DictsOpt e
  | .typeCtor _ _ => True
  | .row vs => Expr.DictsAll vs
  | .interval _ _ _ => True
  | .cast _ e _ => Expr.Dicts e
  | .subscript v i => Expr.Dicts v ∧ Expr.Dicts i
  | .case v bs e => Expr.DictsOpt v ∧ Expr.DictsWhens bs ∧ Expr.DictsOpt e
  | .func _ as => Expr.DictsAll as
  | .agg _ as ob fl w _ => Expr.DictsAll as ∧ Ord.DictsAll ob ∧ Expr.DictsOpt fl ∧ Win.DictsOpt w
  | .listagg v _ _ ob => Expr.Dicts v ∧ Ord.DictsAll ob
  | .curTime _ _ => True
  | .session _ => True
  | .normalize v _ => Expr.Dicts v
  | .query q => Query.Dicts q
def Ord.Dicts : Ord → Prop
  | .mk v _ _ => Expr.Dicts v
def Bound.Dicts : Bound → Prop
  | .bounded _ e => Expr.Dicts e
  | .unbounded _ => True
  | .current => True
def Win.Dicts : Win → Prop
  | .mk _ ob ps _ st en => Ord.DictsAll ob ∧ Expr.DictsAll ps ∧ Bound.Dicts st ∧ Bound.Dicts en
def Grp.Dicts : Grp → Prop
  | .set vs => Expr.DictsAll vs
  | .sets gs => Expr.DictsLists gs
  | .cube vs => Expr.DictsAll vs
  | .rollup vs => Expr.DictsAll vs
def GroupBy.Dicts : GroupBy → Prop
  | .mk gs _ => Grp.DictsAll gs
def Query.Dicts : Query → Prop
  | .mk b _ _ ob w => QBody.Dicts b ∧ Ord.DictsAll ob ∧ Named.DictsAll w
def QBody.Dicts : QBody → Prop
  | .select items fr wh gb hv _ wins => Expr.DictsAll items ∧ Rel.DictsOpt fr ∧ Expr.DictsOpt wh ∧ GroupBy.DictsOpt gb ∧ Expr.DictsOpt hv ∧ Win.DictsNamed wins ∧ (wins.map Prod.fst).Nodup
  | .set _ l r _ => Query.Dicts l ∧ Query.Dicts r
  | .table _ => True
  | .values es => Expr.DictsAll es
def Named.Dicts : Named → Prop
  | .mk r _ _ => Rel.Dicts r
def Rel.Dicts : Rel → Prop
  | .table _ => True
  | .query q => Query.Dicts q
  | .aliased n => Named.Dicts n
  | .join l r _ _ cr => Rel.Dicts l ∧ Rel.Dicts r ∧ Crit.DictsOpt cr
  | .unnest as _ => Expr.DictsAll as
  | .lateral q => Query.Dicts q
  | .sample r _ p => Rel.Dicts r ∧ Expr.Dicts p
def Crit.Dicts : Crit → Prop
  | .using _ => True
  | .on e => Expr.Dicts e
def Expr.DictsOpt : Option Expr → Prop
  | none => True
  | some x => Expr.Dicts x
def Expr.DictsAll : List Expr → Prop
  | [] => True
  | x :: r => Expr.Dicts x ∧ Expr.DictsAll r
def Expr.DictsLists : List (List Expr) → Prop
  | [] => True
  | x :: r => Expr.DictsAll x ∧ Expr.DictsLists r
def Expr.DictsWhens : List (Expr × Expr) → Prop
  | [] => True
  | (c, v) :: r => Expr.Dicts c ∧ Expr.Dicts v ∧ Expr.DictsWhens r
def Ord.DictsAll : List Ord → Prop
  | [] => True
  | x :: r => Ord.Dicts x ∧ Ord.DictsAll r
def Win.DictsOpt : Option Win → Prop
  | none => True
  | some x => Win.Dicts x
def Grp.DictsAll : List Grp → Prop
  | [] => True
  | x :: r => Grp.Dicts x ∧ Grp.DictsAll r
def GroupBy.DictsOpt : Option GroupBy → Prop
  | none => True
  | some x => GroupBy.Dicts x
def Win.DictsNamed : List (Str × Win) → Prop
  | [] => True
  | (_, x) :: r => Win.Dicts x ∧ Win.DictsNamed r
def Named.DictsAll : List Named → Prop
  | [] => True
  | x :: r => Named.Dicts x ∧ Named.DictsAll r
def Rel.DictsOpt : Option Rel → Prop
  | none => True
  | some x => Rel.Dicts x
def Crit.DictsOpt : Option Crit → Prop
  | none => True
  | some x => Crit.Dicts x
end

end Treeno
