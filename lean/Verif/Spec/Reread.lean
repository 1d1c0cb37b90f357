import Verif.Spec.Tidy
import Verif.Spec.TreeMap
import Verif.Spec.Schemas
/-!
# The tree that one gets back

`reread e` is the tree that reading the text of `e` is claimed to give: `e` itself, except that

* the types of columns and stars, and the columns of tables, are forgotten, and a literal has the type of
  its value;
* NOT of an equality is an inequality and the other way round, and the minus of a number belongs to the
  number;
* a table name, parent window or alias that is the empty string is gone, and so is a LIMIT or OFFSET of 0;
* the names in the body of a lambda expression are bound anew.
-/
set_option autoImplicit false
namespace Treeno
namespace Spec

/-- The number of digits of a decimal, with the zero in front of the point. -/
def decDigits (d : Dec) : Int := max ((natStr d.coeff).length : Int) (1 - d.exp)

/-- The type of a literal is the type of its value. -/
def litType : Option Scalar → Ty
  | none => .unknown
  | some (.bool _) => .simple .boolean
  | some (.int n) => if -2 ^ 31 ≤ n ∧ n < 2 ^ 31 then .simple .integer else .simple .bigint
  | some (.float _) => .simple .double
  | some (.dec d) => .decimal (decDigits d) (-d.exp)
  | some (.str s) => .varchar (some s.length)

/-- The literal with this value. -/
def litOf (v : Option Scalar) : Expr := .lit v (litType v)

/-- An equality or inequality. -/
def isEquality : Expr → Bool
  | .bin .eq _ _ => true
  | .bin .ne _ _ => true
  | _ => false

/-- An equality made an inequality and the other way round. -/
def flipEquality : Expr → Expr
  | .bin .eq a b => .bin .ne a b
  | .bin .ne a b => .bin .eq a b
  | e => e

/-- The negation of `e`, when `e` stands for the tree `v`. -/
def notOf (v e : Expr) : Expr := if isEquality v then flipEquality e else .not e

/-- The sign in front of `e`. -/
def signedOf : UnOp → Expr → Expr
  | .neg, .lit (some (.int n)) _ => litOf (some (.int (-n)))
  | .neg, .lit (some (.dec d)) _ => litOf (some (.dec { d with neg := !d.neg }))
  | op, e => .un op e

/-- A number of rows. -/
def rowsOf : Option Int → Option Int
  | some n => if n = 0 then none else some n
  | none => none

/-- The columns named in `ins` become variables. -/
def bind (ins : List Str) (e : Expr) : Expr := mapExpr (bindNode ins) id e

end Spec
open Spec

mutual
def Expr.reread : Expr → Expr
  | .lit v _ => litOf v
  | .field n t _ => .field n (truthy t) .unknown
  | .fieldOf n b _ => .fieldOf n b.reread .unknown
  | .alias v n => .alias v.reread n
  | .star t _ => .star (truthy t) .unknown
  | .starOf b _ => .starOf b.reread .unknown
  | .aliasedStar s as => .aliasedStar s.reread as
  | .var n => .field n none .unknown
  | .lam ins b => .lam ins (bind ins b.reread)
  | .un op v => signedOf op v.reread
  | .bin op l r => .bin op l.reread r.reread
  | .not v => notOf v v.reread
  | .isNull v => .isNull v.reread
  | .between v l u => .between v.reread l.reread u.reread
  | .array vs => .array (Expr.rereads vs)
  | .inQuery v q => .inQuery v.reread q.reread
  | .inList v es => .inList v.reread (Expr.rereads es)
  | .like v p e => .like v.reread p.reread (Expr.rereadOpt e)
  | .typeCtor v t => .typeCtor v t
  | .row vs => .row (Expr.rereads vs)
  | .interval v f t => .interval v f t
  | .cast tr e t => .cast tr e.reread t
  | .subscript v i => .subscript v.reread i.reread
  | .case v bs e => .case (Expr.rereadOpt v) (Expr.rereadWhens bs) (Expr.rereadOpt e)
  | .func f as => .func f (Expr.rereads as)
  | .agg f as ob fl w ign => .agg f (Expr.rereads as) (Ord.rereads ob) (Expr.rereadOpt fl) (Win.rereadOpt w) ign
  | .listagg v sep ov ob => .listagg v.reread sep ov (Ord.rereads ob)
  | .curTime f p => .curTime f p
  | .session f => .session f
  | .normalize v fo => .normalize v.reread fo
  | .query q => .query q.reread
def Expr.rereadOpt : Option Expr → Option Expr
  | none => none
  | some e => some e.reread
def Win.rereadOpt : Option Win → Option Win
  | none => none
  | some w => some w.reread
def GroupBy.rereadOpt : Option GroupBy → Option GroupBy
  | none => none
  | some g => some g.reread
def Rel.rereadOpt : Option Rel → Option Rel
  | none => none
  | some r => some r.reread
def Crit.rereadOpt : Option Crit → Option Crit
  | none => none
  | some c => some c.reread
def Expr.rereads : List Expr → List Expr
  | [] => []
  | e :: es => e.reread :: Expr.rereads es
def Expr.rereadWhens : List (Expr × Expr) → List (Expr × Expr)
  | [] => []
  | (c, v) :: bs => (c.reread, v.reread) :: Expr.rereadWhens bs
def Expr.rereadLists : List (List Expr) → List (List Expr)
  | [] => []
  | vs :: gs => Expr.rereads vs :: Expr.rereadLists gs
def Ord.reread : Ord → Ord
  | .mk v d nf => .mk v.reread d nf
def Ord.rereads : List Ord → List Ord
  | [] => []
  | x :: xs => x.reread :: Ord.rereads xs
def Bound.reread : Bound → Bound
  | .bounded t e => .bounded t e.reread
  | .unbounded t => .unbounded t
  | .current => .current
def Win.reread : Win → Win
  | .mk p ob ps f st en => .mk (truthy p) (Ord.rereads ob) (Expr.rereads ps) f st.reread en.reread
def Grp.reread : Grp → Grp
  | .set vs => .set (Expr.rereads vs)
  | .sets gs => .sets (Expr.rereadLists gs)
  | .cube vs => .cube (Expr.rereads vs)
  | .rollup vs => .rollup (Expr.rereads vs)
def Grp.rereads : List Grp → List Grp
  | [] => []
  | g :: gs => g.reread :: Grp.rereads gs
def GroupBy.reread : GroupBy → GroupBy
  | .mk gs d => .mk (Grp.rereads gs) d
def Query.reread : Query → Query
  | .mk b off lim ob w => .mk b.reread (rowsOf off) (rowsOf lim) (Ord.rereads ob) (Named.rereads w)
def QBody.reread : QBody → QBody
  | .select items fr wh gb hv d wins => .select (Expr.rereads items) (Rel.rereadOpt fr) (Expr.rereadOpt wh) (GroupBy.rereadOpt gb) (Expr.rereadOpt hv) d (Win.rereadNamed wins)
  | .set k l r d => .set k l.reread r.reread d
  | .table t => .table (forgetTable t)
  | .values es => .values (Expr.rereads es)
def Win.rereadNamed : List (Str × Win) → List (Str × Win)
  | [] => []
  | (n, w) :: ws => (n, w.reread) :: Win.rereadNamed ws
def Named.reread : Named → Named
  | .mk r a cols => .mk r.reread a cols
def Named.rereads : List Named → List Named
  | [] => []
  | n :: ns => n.reread :: Named.rereads ns
def Rel.reread : Rel → Rel
  | .table t => .table (forgetTable t)
  | .query q => .query q.reread
  | .aliased n => .aliased n.reread
  | .join l r t nat cr => .join l.reread r.reread t nat (Crit.rereadOpt cr)
  | .unnest as ord => .unnest (Expr.rereads as) ord
  | .lateral q => .lateral q.reread
  | .sample r t p => .sample r.reread t p.reread
def Crit.reread : Crit → Crit
  | .using cols => .using cols
  | .on e => .on e.reread
end

end Treeno
