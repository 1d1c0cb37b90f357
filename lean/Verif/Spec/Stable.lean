import Verif.Spec.Reread
import Verif.Sql
/-!
# Trees whose text stays the same when it is read and printed again

`e.Stable bs o`: `e` stands below lambda expressions with the inputs `bs` and is printed with the options `o`.
Excluded are

* the negation of an equality as an operand of a sign, an arithmetic operator, a comparison, a predicate or
  another NOT: `Not(a = b) = c` prints as `(a <> b) = c`, is read as `Equal(NotEqual(a, b), c)`, and that prints
  as `a <> b = c`;
* the negation of an inequality whose operands are printed over several lines: it is printed in default mode
  whatever the options, and the equality that it is read as is not;
* the minus sign on zero or on a number that has a minus sign already;
* a variable outside of a lambda expression that binds it, and a column with the name of a variable.
-/
set_option autoImplicit false
namespace Treeno
namespace Spec

/-- Not the negation of an equality or inequality. -/
def Upright : Expr → Prop
  | .not v => isEquality v = false
  | _ => True

/-- A minus sign becomes part of a number. -/
def SignStable : UnOp → Expr → Prop
  | .neg, .lit (some (.int n)) _ => 0 < n
  | .neg, .lit (some (.dec d)) _ => d.neg = false
  | .neg, .un .neg _ => False
  | _, _ => True

/-- The options do not matter for the text of `v`. -/
def SameInDefault (o : Opts) (v : Expr) : Prop := v.sqlN false o = v.sqlN false {}

/-- The operands of a negated inequality. -/
def NotStable (o : Opts) : Expr → Prop
  | .bin .ne a b => SameInDefault o a ∧ SameInDefault o b
  | _ => True

end Spec
open Spec

mutual
def Expr.Stable (bs : List Str) (o : Opts) : Expr → Prop
  | .lit _ _ => True
  | .field n tn _ => (truthy tn = none → n ∉ bs)
  | .fieldOf _ b _ => b.Stable bs o
  | .alias v _ => v.Stable bs o
  | .star _ _ => True
  | .starOf b _ => b.Stable bs o
  | .aliasedStar s _ => s.Stable bs o
  | .var n => n ∈ bs
  | .lam ins b => b.Stable (ins ++ bs) o
  | .un op v => v.Stable bs o ∧ Upright v ∧ SignStable op v
  | .bin op l r => l.Stable bs o ∧ r.Stable bs o ∧ (op = .and ∨ op = .or ∨ op = .distinct ∨ Upright l ∧ Upright r)
  | .not v => v.Stable bs o ∧ Upright v ∧ NotStable o v
  | .isNull v => v.Stable bs o ∧ Upright v
  | .between v l u => v.Stable bs o ∧ l.Stable bs o ∧ u.Stable bs o ∧ Upright v ∧ Upright l ∧ Upright u
  | .array vs => Expr.Stables bs o vs
  | .inQuery v q => v.Stable bs o ∧ q.Stable bs o ∧ Upright v
  | .inList v es => v.Stable bs o ∧ Expr.Stables bs o es ∧ Upright v
  | .like v p e => v.Stable bs o ∧ p.Stable bs o ∧ Expr.StableOpt bs o e ∧ Upright v ∧ Upright p
  | .typeCtor _ _ => True
  | .row vs => Expr.Stables bs o vs
  | .interval _ _ _ => True
  | .cast _ e _ => e.Stable bs o
  | .subscript v i => v.Stable bs o ∧ i.Stable bs o
  | .case v ws e => Expr.StableOpt bs o v ∧ Expr.StableWhens bs o ws ∧ Expr.StableOpt bs o e
  | .func _ as => Expr.Stables bs o as
  | .agg _ as ob fl w _ => Expr.Stables bs o as ∧ Ord.Stables bs o ob ∧ Expr.StableOpt bs o fl ∧ Win.StableOpt bs o w
  | .listagg v _ _ ob => v.Stable bs o ∧ Ord.Stables bs o ob
  | .curTime _ _ => True
  | .session _ => True
  | .normalize v _ => v.Stable bs o
  | .query q => q.Stable bs o
def Ord.Stable (bs : List Str) (o : Opts) : Ord → Prop
  | .mk v _ _ => v.Stable bs o
def Bound.Stable (bs : List Str) (o : Opts) : Bound → Prop
  | .bounded _ e => e.Stable bs o
  | .unbounded _ => True
  | .current => True
def Win.Stable (bs : List Str) (o : Opts) : Win → Prop
  | .mk _ ob ps _ st en => Ord.Stables bs o ob ∧ Expr.Stables bs o ps ∧ st.Stable bs o ∧ en.Stable bs o
def Grp.Stable (bs : List Str) (o : Opts) : Grp → Prop
  | .set vs => Expr.Stables bs o vs
  | .sets gs => Expr.StableLists bs o gs
  | .cube vs => Expr.Stables bs o vs
  | .rollup vs => Expr.Stables bs o vs
def GroupBy.Stable (bs : List Str) (o : Opts) : GroupBy → Prop
  | .mk gs _ => Grp.Stables bs o gs
def Query.Stable (bs : List Str) (o : Opts) : Query → Prop
  | .mk b _ _ ob w => b.Stable bs o ∧ Ord.Stables bs o ob ∧ Named.Stables bs o w
def QBody.Stable (bs : List Str) (o : Opts) : QBody → Prop
  | .select items fr wh gb hv _ wins => Expr.Stables bs o items ∧ Rel.StableOpt bs o fr ∧ Expr.StableOpt bs o wh ∧ GroupBy.StableOpt bs o gb ∧ Expr.StableOpt bs o hv ∧ Win.StableNamed bs o wins
  | .set _ l r _ => l.Stable bs o ∧ r.Stable bs o
  | .table _ => True
  | .values es => Expr.Stables bs o es
def Named.Stable (bs : List Str) (o : Opts) : Named → Prop
  | .mk r _ _ => r.Stable bs o
def Rel.Stable (bs : List Str) (o : Opts) : Rel → Prop
  | .table _ => True
  | .query q => q.Stable bs o
  | .aliased n => n.Stable bs o
  | .join l r _ _ cr => l.Stable bs o ∧ r.Stable bs o ∧ Crit.StableOpt bs o cr
  | .unnest as _ => Expr.Stables bs o as
  | .lateral q => q.Stable bs o
  | .sample r _ p => r.Stable bs o ∧ p.Stable bs o
def Crit.Stable (bs : List Str) (o : Opts) : Crit → Prop
  | .using _ => True
  | .on e => e.Stable bs o
def Expr.StableOpt (bs : List Str) (o : Opts) : Option Expr → Prop
  | none => True
  | some x => x.Stable bs o
def Expr.Stables (bs : List Str) (o : Opts) : List Expr → Prop
  | [] => True
  | x :: xs => x.Stable bs o ∧ Expr.Stables bs o xs
def Expr.StableLists (bs : List Str) (o : Opts) : List (List Expr) → Prop
  | [] => True
  | x :: xs => Expr.Stables bs o x ∧ Expr.StableLists bs o xs
def Expr.StableWhens (bs : List Str) (o : Opts) : List (Expr × Expr) → Prop
  | [] => True
  | (c, v) :: xs => c.Stable bs o ∧ v.Stable bs o ∧ Expr.StableWhens bs o xs
def Ord.Stables (bs : List Str) (o : Opts) : List Ord → Prop
  | [] => True
  | x :: xs => x.Stable bs o ∧ Ord.Stables bs o xs
def Win.StableOpt (bs : List Str) (o : Opts) : Option Win → Prop
  | none => True
  | some x => x.Stable bs o
def Grp.Stables (bs : List Str) (o : Opts) : List Grp → Prop
  | [] => True
  | x :: xs => x.Stable bs o ∧ Grp.Stables bs o xs
def GroupBy.StableOpt (bs : List Str) (o : Opts) : Option GroupBy → Prop
  | none => True
  | some x => x.Stable bs o
def Win.StableNamed (bs : List Str) (o : Opts) : List (Str × Win) → Prop
  | [] => True
  | (_, w) :: xs => w.Stable bs o ∧ Win.StableNamed bs o xs
def Named.Stables (bs : List Str) (o : Opts) : List Named → Prop
  | [] => True
  | x :: xs => x.Stable bs o ∧ Named.Stables bs o xs
def Rel.StableOpt (bs : List Str) (o : Opts) : Option Rel → Prop
  | none => True
  | some x => x.Stable bs o
def Crit.StableOpt (bs : List Str) (o : Opts) : Option Crit → Prop
  | none => True
  | some x => x.Stable bs o
end

end Treeno
