import Verif.Spec.Clauses
/-!
# Trees that the printer accepts

`e.Printable`: no `Normalize` occurs in `e`, and in no window does the name of the parent window coincide with
the first word of a clause of that window.  The parts of a tree that are never printed (WITH and ORDER BY of a
set operation) do not count.
-/
set_option autoImplicit false
namespace Treeno

/-- The name of the parent window is none of the first words of the window's clauses.  An empty name is never printed. -/
def Spec.ParentFree (p : Option Str) (ob : List Ord) (ps : List Expr) (f : FrameType) : Prop :=
  ∀ n, p = some n → n ≠ [] →
    (ps ≠ [] → n ≠ c% "PARTITION") ∧ (ob ≠ [] → n ≠ c% "ORDER") ∧
      n ≠ Spec.frameWord f

mutual
def Expr.Printable : Expr → Prop
  | .lit _ _ => True
  | .field _ _ _ => True
  | .fieldOf _ b _ => Expr.Printable b
  | .alias v _ => Expr.Printable v
  | .star _ _ => True
  | .starOf b _ => Expr.Printable b
  | .aliasedStar s _ => Expr.Printable s
  | .var _ => True
  | .lam _ b => Expr.Printable b
  | .un _ v => Expr.Printable v
  | .bin _ l r => Expr.Printable l ∧ Expr.Printable r
  | .not v => Expr.Printable v
  | .isNull v => Expr.Printable v
  | .between v l u => Expr.Printable v ∧ Expr.Printable l ∧ Expr.Printable u
  | .array vs => Expr.PrintableAll vs
  | .inQuery v q => Expr.Printable v ∧ Query.Printable q
  | .inList v es => Expr.Printable v ∧ Expr.PrintableAll es
  | .like v p e => Expr.Printable v ∧ Expr.Printable p ∧ Expr.PrintableOpt e
  | .typeCtor _ _ => True
  | .row vs => Expr.PrintableAll vs
  | .interval _ _ _ => True
  | .cast _ e _ => Expr.Printable e
  | .subscript v i => Expr.Printable v ∧ Expr.Printable i
  | .case v bs e => Expr.PrintableOpt v ∧ Expr.PrintableWhens bs ∧ Expr.PrintableOpt e
  | .func _ as => Expr.PrintableAll as
  | .agg _ as ob fl w _ => Expr.PrintableAll as ∧ Ord.PrintableAll ob ∧ Expr.PrintableOpt fl ∧ Win.PrintableOpt w
  | .listagg v _ _ ob => Expr.Printable v ∧ Ord.PrintableAll ob
  | .curTime _ _ => True
  | .session _ => True
  | .normalize _ _ => False
  | .query q => Query.Printable q
def Ord.Printable : Ord → Prop
  | .mk v _ _ => Expr.Printable v
def Bound.Printable : Bound → Prop
  | .bounded _ e => Expr.Printable e
  | .unbounded _ => True
  | .current => True
def Win.Printable : Win → Prop
  | .mk p ob ps f st en => Ord.PrintableAll ob ∧ Expr.PrintableAll ps ∧ Bound.Printable st ∧ Bound.Printable en ∧ Spec.ParentFree p ob ps f
def Grp.Printable : Grp → Prop
  | .set vs => Expr.PrintableAll vs
  | .sets gs => Expr.PrintableLists gs
  | .cube vs => Expr.PrintableAll vs
  | .rollup vs => Expr.PrintableAll vs
def GroupBy.Printable : GroupBy → Prop
  | .mk gs _ => Grp.PrintableAll gs
def Query.Printable : Query → Prop
  | .mk b _ _ ob w => b.Printable ∧ match b with
    | .set _ _ _ _ => True
    | _ => Ord.PrintableAll ob ∧ Named.PrintableAll w
def QBody.Printable : QBody → Prop
  | .select items fr wh gb hv _ wins => Expr.PrintableAll items ∧ Rel.PrintableOpt fr ∧ Expr.PrintableOpt wh ∧ GroupBy.PrintableOpt gb ∧ Expr.PrintableOpt hv ∧ Win.PrintableNamed wins
  | .set _ l r _ => Query.Printable l ∧ Query.Printable r
  | .table _ => True
  | .values es => Expr.PrintableAll es
def Named.Printable : Named → Prop
  | .mk r _ _ => Rel.Printable r
def Rel.Printable : Rel → Prop
  | .table _ => True
  | .query q => Query.Printable q
  | .aliased n => Named.Printable n
  | .join l r _ _ cr => Rel.Printable l ∧ Rel.Printable r ∧ Crit.PrintableOpt cr
  | .unnest as _ => Expr.PrintableAll as
  | .lateral q => Query.Printable q
  | .sample r _ p => Rel.Printable r ∧ Expr.Printable p
def Crit.Printable : Crit → Prop
  | .using _ => True
  | .on e => Expr.Printable e
def Expr.PrintableOpt : Option Expr → Prop
  | none => True
  | some x => Expr.Printable x
def Expr.PrintableAll : List Expr → Prop
  | [] => True
  | x :: r => Expr.Printable x ∧ Expr.PrintableAll r
def Expr.PrintableLists : List (List Expr) → Prop
  | [] => True
  | x :: r => Expr.PrintableAll x ∧ Expr.PrintableLists r
def Expr.PrintableWhens : List (Expr × Expr) → Prop
  | [] => True
  | (c, v) :: r => Expr.Printable c ∧ Expr.Printable v ∧ Expr.PrintableWhens r
def Ord.PrintableAll : List Ord → Prop
  | [] => True
  | x :: r => Ord.Printable x ∧ Ord.PrintableAll r
def Win.PrintableOpt : Option Win → Prop
  | none => True
  | some x => Win.Printable x
def Grp.PrintableAll : List Grp → Prop
  | [] => True
  | x :: r => Grp.Printable x ∧ Grp.PrintableAll r
def GroupBy.PrintableOpt : Option GroupBy → Prop
  | none => True
  | some x => GroupBy.Printable x
def Win.PrintableNamed : List (Str × Win) → Prop
  | [] => True
  | (_, x) :: r => Win.Printable x ∧ Win.PrintableNamed r
def Named.PrintableAll : List Named → Prop
  | [] => True
  | x :: r => Named.Printable x ∧ Named.PrintableAll r
def Rel.PrintableOpt : Option Rel → Prop
  | none => True
  | some x => Rel.Printable x
def Crit.PrintableOpt : Option Crit → Prop
  | none => True
  | some x => Crit.Printable x
end

end Treeno
