import Verif.Ast
/-!
# Trees without LIMIT 0

`Rows e`: no query in `e` has the limit 0, which the printer drops (`C28_zero_lost`).
-/
set_option autoImplicit false
namespace Treeno

mutual
def Expr.Rows : Expr → Prop
  | .lit _ _ => True
  | .field _ _ _ => True
  | .fieldOf _ b _ => b.Rows
  | .alias v _ => v.Rows
  | .star _ _ => True
  | .starOf b _ => b.Rows
  | .aliasedStar s _ => s.Rows
  | .var _ => True
  | .lam _ b => b.Rows
  | .un _ v => v.Rows
  | .bin _ l r => l.Rows ∧ r.Rows
  | .not v => v.Rows
  | .isNull v => v.Rows
  | .between v l u => v.Rows ∧ l.Rows ∧ u.Rows
  | .array vs => Expr.Rowss vs
  | .inQuery v q => v.Rows ∧ q.Rows
  | .inList v es => v.Rows ∧ Expr.Rowss es
  | .like v p e => v.Rows ∧ p.Rows ∧ Expr.RowsOpt e
  | .typeCtor _ _ => True
  | .row vs => Expr.Rowss vs
  | .interval _ _ _ => True
  | .cast _ e _ => e.Rows
  | .subscript v i => v.Rows ∧ i.Rows
  | .case v bs e => Expr.RowsOpt v ∧ Expr.RowsWhens bs ∧ Expr.RowsOpt e
  | .func _ as => Expr.Rowss as
  | .agg _ as ob fl w _ => Expr.Rowss as ∧ Ord.Rowss ob ∧ Expr.RowsOpt fl ∧ Win.RowsOpt w
  | .listagg v _ _ ob => v.Rows ∧ Ord.Rowss ob
  | .curTime _ _ => True
  | .session _ => True
  | .normalize v _ => v.Rows
  | .query q => q.Rows
def Expr.RowsOpt : Option Expr → Prop
  | none => True
  | some e => e.Rows
def Win.RowsOpt : Option Win → Prop
  | none => True
  | some w => w.Rows
def GroupBy.RowsOpt : Option GroupBy → Prop
  | none => True
  | some g => g.Rows
def Rel.RowsOpt : Option Rel → Prop
  | none => True
  | some r => r.Rows
def Crit.RowsOpt : Option Crit → Prop
  | none => True
  | some c => c.Rows
def Expr.Rowss : List Expr → Prop
  | [] => True
  | e :: es => e.Rows ∧ Expr.Rowss es
def Expr.RowsWhens : List (Expr × Expr) → Prop
  | [] => True
  | (c, v) :: bs => c.Rows ∧ v.Rows ∧ Expr.RowsWhens bs
def Expr.RowsLists : List (List Expr) → Prop
  | [] => True
  | vs :: gs => Expr.Rowss vs ∧ Expr.RowsLists gs
def Ord.Rows : Ord → Prop
  | .mk v _ _ => v.Rows
def Ord.Rowss : List Ord → Prop
  | [] => True
  | x :: xs => x.Rows ∧ Ord.Rowss xs
def Bound.Rows : Bound → Prop
  | .bounded _ e => e.Rows
  | .unbounded _ => True
  | .current => True
def Win.Rows : Win → Prop
  | .mk _ ob ps _ st en => Ord.Rowss ob ∧ Expr.Rowss ps ∧ st.Rows ∧ en.Rows
def Grp.Rows : Grp → Prop
  | .set vs => Expr.Rowss vs
  | .sets gs => Expr.RowsLists gs
  | .cube vs => Expr.Rowss vs
  | .rollup vs => Expr.Rowss vs
def Grp.Rowss : List Grp → Prop
  | [] => True
  | g :: gs => g.Rows ∧ Grp.Rowss gs
def GroupBy.Rows : GroupBy → Prop
  | .mk gs _ => Grp.Rowss gs
def Query.Rows : Query → Prop
  | .mk b _ lim ob w => lim ≠ some 0 ∧ Named.RowsWiths w ∧ Ord.Rowss ob ∧ b.Rows
def QBody.Rows : QBody → Prop
  | .select items fr wh gb hv _ wins => Expr.Rowss items ∧ Rel.RowsOpt fr ∧ Expr.RowsOpt wh ∧ GroupBy.RowsOpt gb ∧ Expr.RowsOpt hv ∧ Win.RowsNamed wins
  | .set _ l r _ => l.Rows ∧ r.Rows
  | .table _ => True
  | .values es => Expr.Rowss es
def Win.RowsNamed : List (Str × Win) → Prop
  | [] => True
  | (_, w) :: ws => w.Rows ∧ Win.RowsNamed ws
def Named.Rows : Named → Prop
  | .mk r _ _ => r.Rows
def Named.RowsWith : Named → Prop
  | .mk r _ _ => r.Rows
def Named.RowsWiths : List Named → Prop
  | [] => True
  | n :: ns => n.RowsWith ∧ Named.RowsWiths ns
def Rel.Rows : Rel → Prop
  | .table _ => True
  | .query q => q.Rows
  | .aliased n => n.Rows
  | .join l r _ _ cr => l.Rows ∧ r.Rows ∧ Crit.RowsOpt cr
  | .unnest as _ => Expr.Rowss as
  | .lateral q => q.Rows
  | .sample r _ p => r.Rows ∧ p.Rows
def Crit.Rows : Crit → Prop
  | .using _ => True
  | .on e => e.Rows
end

end Treeno
