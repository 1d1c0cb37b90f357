import Verif.Spec.Reread
import Verif.Spec.PlainTree
/-!
# Trees whose printed text has the grammar's shape

`Fits e`: every operand of `e` is either put in parentheses by the printer or binds at least as tightly as
its place in treeno/grammar/SqlBase.g4 asks for; the lists that the grammar wants to be non-empty are; the
unquoted names are not words with a meaning.  `Expr.level` is the level of the rule that a printed text
belongs to: 0 OR and lambda expressions, 1 AND, 2 NOT, 3 predicates, 5 sums, 6 products, 7 signs, 8
`primaryExpression`.
-/
set_option autoImplicit false
namespace Treeno
namespace Spec

/-- An unquoted name that the grammar takes for a name. -/
def FreeWord (w : Str) : Prop := isKeyword w = true → upper w ∈ nonReserved ∧ upper w ∉ special

/-- A number without a sign. -/
def isNumber : Expr → Bool
  | .lit (some (.int n)) _ => decide (0 ≤ n)
  | .lit (some (.dec d)) _ => !d.neg
  | _ => false

/-- A decimal that keeps its value when it is negated: Python rounds to 28 digits and has no negative
zero. -/
def Negatable : Dec → Prop := fun d => d.coeff ≠ 0 ∧ (natStr d.coeff).length ≤ 28

/-- The value of a literal. -/
def LitFits : Option Scalar → Prop
  | some (.dec d) => decDigits d ≤ 38 ∧ (d.neg = true → Negatable d)
  | _ => True

/-- The operand of a sign. -/
def SignFits : UnOp → Expr → Prop
  | .neg, .lit (some (.dec d)) _ => Negatable d
  | _, _ => True

def isLambda : Expr → Bool
  | .lam _ _ => true
  | _ => false

/-- The level of an operator. -/
def opLevel : BinOp → Nat
  | .or => 0
  | .and => 1
  | .add | .sub => 5
  | .mul | .div | .mod => 6
  | _ => 3

/-- The levels that the operands of an operator need. -/
def leftLevel : BinOp → Nat
  | .or => 0
  | .and => 1
  | .add | .sub => 5
  | .mul | .div | .mod => 6
  | _ => 4
def rightLevel : BinOp → Nat
  | .or => 1
  | .and => 2
  | .add | .sub => 6
  | .mul | .div | .mod => 7
  | _ => 4

/-- 0 joins, 1 samples, 2 aliases, 3 `relationPrimary`. -/
def relLevel : Rel → Nat
  | .join .. => 0
  | .sample .. => 1
  | .aliased _ => 2
  | _ => 3

/-- Only some functions take any number of arguments they are given. -/
def FnFits (f : Fn) (n : Nat) : Prop := f = .fromUnixtime → n = 2 ∨ n = 3

/-- The arguments of APPROX_PERCENTILE are swapped when it is read with three of them. -/
def AggFits (f : Agg) (n : Nat) : Prop := f = .approxPercentile → n ≠ 3

/-- The qualifiers of a table. -/
def TableFits (t : TableRef) : Prop := t.catalog.isSome → t.schema.isSome

end Spec
open Spec

/-- See the header. -/
def Expr.level : Expr → Nat
  | .lam _ _ => 0
  | .bin op _ _ => opLevel op
  | .not v => if v.negatable then 3 else 2
  | .isNull _ | .between _ _ _ | .inQuery _ _ | .inList _ _ | .like _ _ _ => 3
  | .un op v => if op = .neg ∧ isNumber v then 8 else 7
  | _ => 8

/-- The operand `v` of an operator of precedence `cur` at a place of level `n`. -/
def Expr.At (v : Expr) (cur : Option Nat) (isLeft : Bool) (n : Nat) : Prop :=
  needsParen cur v.prec isLeft = true ∨ n ≤ v.level ∧ isLambda v = false

mutual
/-- No subquery, and columns of unknown type. -/
def Expr.Body : Expr → Prop
  | .lit _ _ => True
  | .field _ _ t => t = .unknown
  | .fieldOf _ _ _ => False
  | .alias _ _ => False
  | .star _ _ => True
  | .starOf _ _ => False
  | .aliasedStar _ _ => False
  | .var _ => True
  | .lam _ b => b.Body
  | .un _ v => v.Body
  | .bin _ l r => l.Body ∧ r.Body
  | .not v => v.Body
  | .isNull v => v.Body
  | .between v l u => v.Body ∧ l.Body ∧ u.Body
  | .array vs => Expr.Bodys vs
  | .inQuery _ _ => False
  | .inList v es => v.Body ∧ Expr.Bodys es
  | .like v p e => v.Body ∧ p.Body ∧ Expr.BodyOpt e
  | .typeCtor _ _ => True
  | .row vs => Expr.Bodys vs
  | .interval _ _ _ => True
  | .cast _ e _ => e.Body
  | .subscript v i => v.Body ∧ i.Body
  | .case v bs e => Expr.BodyOpt v ∧ Expr.BodyWhens bs ∧ Expr.BodyOpt e
  | .func _ as => Expr.Bodys as
  | .agg _ as ob fl w _ => Expr.Bodys as ∧ Ord.Bodys ob ∧ Expr.BodyOpt fl ∧ Win.BodyOpt w
  | .listagg v _ _ ob => v.Body ∧ Ord.Bodys ob
  | .curTime _ _ => True
  | .session _ => True
  | .normalize v _ => v.Body
  | .query _ => False
def Expr.BodyOpt : Option Expr → Prop
  | none => True
  | some e => e.Body
def Win.BodyOpt : Option Win → Prop
  | none => True
  | some w => w.Body
def Expr.Bodys : List Expr → Prop
  | [] => True
  | e :: es => e.Body ∧ Expr.Bodys es
def Expr.BodyWhens : List (Expr × Expr) → Prop
  | [] => True
  | (c, v) :: bs => c.Body ∧ v.Body ∧ Expr.BodyWhens bs
def Ord.Bodys : List Ord → Prop
  | [] => True
  | .mk v _ _ :: xs => v.Body ∧ Ord.Bodys xs
def Bound.Body : Bound → Prop
  | .bounded _ e => e.Body
  | .unbounded _ => True
  | .current => True
def Win.Body : Win → Prop
  | .mk _ ob ps _ st en => Ord.Bodys ob ∧ Expr.Bodys ps ∧ st.Body ∧ en.Body
end

def Expr.isRow : Expr → Bool
  | .row _ => true
  | _ => false

/-- A single row in a grouping set is read as the set of its values. -/
def Expr.OneFits : List Expr → Prop
  | [e] => e.isRow = false
  | _ => True

mutual
def Expr.Fits : Expr → Prop
  | .lit v _ => LitFits v
  | .field _ _ _ => True
  | .fieldOf _ _ _ => True
  | .alias v _ => v.Fits
  | .star t _ => IfAny FreeWord (truthy t)
  | .starOf _ _ => True
  | .aliasedStar _ _ => True
  | .var n => FreeWord n
  | .lam ins b => (∀ n ∈ ins, FreeWord n) ∧ b.Fits ∧ b.reread.Body
  | .un op v => v.Fits ∧ v.At (some 8) true 7 ∧ SignFits op v ∧ (op = .neg → isNumber v = true ∨ needsParen (some 8) v.prec true = true ∨ v.first ≠ .num)
  | .bin op l r => l.Fits ∧ r.Fits ∧ l.At op.prec true (leftLevel op) ∧ r.At op.prec false (rightLevel op)
  | .not v => v.Fits ∧ (v.negatable = false → v.At (some 2) true 2)
  | .isNull v => v.Fits ∧ v.At (some 3) true 4
  | .between v l u => v.Fits ∧ l.Fits ∧ u.Fits ∧ v.At (some 3) true 4 ∧ l.At (some 3) true 4 ∧ u.At (some 3) true 4
  | .array vs => Expr.Fitss vs
  | .inQuery v q => v.Fits ∧ q.Fits ∧ v.At (some 3) true 4
  | .inList v es => v.Fits ∧ Expr.Fitss es ∧ v.At (some 3) true 4 ∧ es ≠ []
  | .like v p e => v.Fits ∧ p.Fits ∧ Expr.FitsOpt e ∧ v.At (some 3) true 4 ∧ p.At (some 3) true 4 ∧ IfAny (fun x => x.At none true 4) e
  | .typeCtor _ t => FreeWord t
  | .row vs => Expr.Fitss vs ∧ 2 ≤ vs.length
  | .interval _ _ _ => True
  | .cast _ e t => e.Fits ∧ Valid t ∧ Readable t
  | .subscript v i => v.Fits ∧ i.Fits ∧ v.At none true 8 ∧ i.At none true 4
  | .case v bs e => Expr.FitsOpt v ∧ Expr.FitsWhens bs ∧ Expr.FitsOpt e
  | .func f as => Expr.Fitss as ∧ FnFits f as.length
  | .agg f as ob fl w ign => Expr.Fitss as ∧ Ord.Fitss ob ∧ Expr.FitsOpt fl ∧ Win.FitsOpt w ∧ AggFits f as.length ∧ (ign = true → w.isSome = true)
  | .listagg v _ _ ob => v.Fits ∧ Ord.Fitss ob ∧ ob ≠ []
  | .curTime _ _ => True
  | .session _ => True
  | .normalize _ _ => True
  | .query _ => True
def Expr.FitsOpt : Option Expr → Prop
  | none => True
  | some e => e.Fits
def Win.FitsOpt : Option Win → Prop
  | none => True
  | some w => w.Fits
def GroupBy.FitsOpt : Option GroupBy → Prop
  | none => True
  | some g => g.Fits
def Rel.FitsOpt : Option Rel → Prop
  | none => True
  | some r => r.Fits
def Crit.FitsOpt : Option Crit → Prop
  | none => True
  | some c => c.Fits
def Expr.Fitss : List Expr → Prop
  | [] => True
  | e :: es => e.Fits ∧ Expr.Fitss es
def Expr.FitsWhens : List (Expr × Expr) → Prop
  | [] => True
  | (c, v) :: bs => c.Fits ∧ v.Fits ∧ Expr.FitsWhens bs
def Expr.FitsLists : List (List Expr) → Prop
  | [] => True
  | vs :: gs => Expr.Fitss vs ∧ Expr.OneFits vs ∧ Expr.FitsLists gs
def Ord.Fits : Ord → Prop
  | .mk v _ _ => v.Fits
def Ord.Fitss : List Ord → Prop
  | [] => True
  | x :: xs => x.Fits ∧ Ord.Fitss xs
def Bound.Fits : Bound → Prop
  | .bounded _ e => e.Fits
  | .unbounded _ => True
  | .current => True
def Win.Fits : Win → Prop
  | .mk p ob ps _ st en => IfAny FreeWord (truthy p) ∧ Ord.Fitss ob ∧ Expr.Fitss ps ∧ st.Fits ∧ en.Fits
def Grp.Fits : Grp → Prop
  | .set vs => Expr.Fitss vs ∧ Expr.OneFits vs
  | .sets gs => gs ≠ [] ∧ Expr.FitsLists gs
  | .cube vs => Expr.Fitss vs
  | .rollup vs => Expr.Fitss vs
def Grp.Fitss : List Grp → Prop
  | [] => True
  | g :: gs => g.Fits ∧ Grp.Fitss gs
def GroupBy.Fits : GroupBy → Prop
  | .mk gs _ => Grp.Fitss gs
def Query.Fits : Query → Prop
  | .mk b _ _ ob w => b.Fits ∧ Ord.Fitss ob ∧ Named.Fitss w
def QBody.Fits : QBody → Prop
  | .select items fr wh gb hv _ wins => Expr.Fitss items ∧ Rel.FitsOpt fr ∧ Expr.FitsOpt wh ∧ GroupBy.FitsOpt gb ∧ Expr.FitsOpt hv ∧ Win.FitsNamed wins ∧ (wins.map Prod.fst).Nodup
  | .set _ _ _ _ => False
  | .table t => TableFits t
  | .values es => Expr.Fitss es
def Win.FitsNamed : List (Str × Win) → Prop
  | [] => True
  | (n, w) :: ws => FreeWord n ∧ w.Fits ∧ Win.FitsNamed ws
def Named.Fits : Named → Prop
  | .mk r _ cols => r.Fits ∧ 3 ≤ relLevel r ∧ ∀ n ∈ cols, FreeWord n
def Named.FitsWith : Named → Prop
  | .mk r _ _ => r.Fits
def Named.Fitss : List Named → Prop
  | [] => True
  | n :: ns => n.FitsWith ∧ Named.Fitss ns
def Rel.Fits : Rel → Prop
  | .table t => TableFits t
  | .query q => q.Fits
  | .aliased n => n.Fits
  | .join l r _ _ cr => l.Fits ∧ r.Fits ∧ Crit.FitsOpt cr ∧ (cr.isSome = false → 1 ≤ relLevel r)
  | .unnest as _ => Expr.Fitss as ∧ as ≠ []
  | .lateral q => q.Fits
  | .sample r _ p => r.Fits ∧ p.Fits ∧ relLevel r ≠ 1
def Crit.Fits : Crit → Prop
  | .using cols => ∀ n ∈ cols, FreeWord n
  | .on e => e.Fits
end

namespace Spec

/-- A query that fits, or a set operation between such queries, however deeply nested. -/
inductive Combined : Query → Prop
  | fits {q : Query} (h : q.Fits) : Combined q
  | set {k : SetKind} {l r : Query} {d : Bool} {off lim : Option Int} {ob : List Ord} {w : List Named}
      (hl : Combined l) (hr : Combined r) : Combined (.mk (.set k l r d) off lim ob w)

end Spec

end Treeno
