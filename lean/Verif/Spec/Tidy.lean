import Verif.Sql
import Verif.Lexer
/-!
# Trees whose printed text falls apart into the tokens one expects

`Tidy e` restricts the *names, strings and numbers* in a tree, and leaves out the few nodes whose text
does not fit the grammar at all; it says nothing about the nesting of the operators.
-/
set_option autoImplicit false
namespace Treeno
namespace Spec

/-- No line break of any kind. -/
def NoBreak (s : Str) : Prop := ∀ c ∈ s, isBreak c = false

/-- A name that is printed between double quotes. -/
def NameOk (n : Str) : Prop := '"' ∉ n ∧ NoBreak n

/-- A string that is printed between quotes. -/
def StrOk (s : Str) : Prop := '\'' ∉ s ∧ NoBreak s

/-- A name that is printed as it is: letters, digits and underscores, not starting with a digit. -/
def IsWord (w : Str) : Prop := ∃ c s, w = c :: s ∧ isIdStart c = true ∧ ∀ d ∈ s, isIdChar d = true

/-- A decimal number that prints as `digits.digits`: Python switches to an exponent for very small ones
and for multiples of ten. -/
def DecOk (d : Dec) : Prop := d.exp < 0 ∧ d.exp + (natStr d.coeff).length > -6

/-- The value of a literal. -/
def LitOk : Option Scalar → Prop
  | some (.float _) => False
  | some (.dec d) => DecOk d
  | some (.str s) => StrOk s
  | _ => True

/-- If there is a value, it satisfies the condition. -/
def IfAny {α : Type} (p : α → Prop) (o : Option α) : Prop := ∀ a, o = some a → p a

/-- The names of a table. -/
def TableOk (t : TableRef) : Prop := NameOk t.name ∧ IfAny NameOk t.schema ∧ IfAny NameOk t.catalog

/-- Does the printer put parentheses around an operand of precedence `val` below an operator of
precedence `cur`?  (`pemdas_str`, treeno/expression.py 432-466.) -/
def needsParen (cur val : Option Nat) (isLeft : Bool) : Bool :=
  match cur, val with
  | some c, some v => if c = v then !isLeft else decide (v < c)
  | _, _ => false

/-- What a printed text starts with. -/
inductive First
  | dash | paren | num | other
  deriving DecidableEq, Repr

def litFirst : Option Scalar → First
  | some (.int n) => if n < 0 then .dash else .num
  | some (.dec d) => if d.neg then .dash else .num
  | _ => .other

/-- The only argument is a star. -/
def isStarArg : List Expr → Bool
  | [.star _ _] => true
  | _ => false

/-- The three kinds of joins the grammar knows: CROSS without a condition, NATURAL without a condition,
and one with a condition. -/
def JoinOk (t : JoinType) (natural crit : Bool) : Prop :=
  (t = .cross ∧ natural = false ∧ crit = false) ∨ (t ≠ .cross ∧ natural = !crit)

end Spec
open Spec

/-- What the text of an expression starts with: the leftmost operand decides, unless it is put in
parentheses. -/
def Expr.first : Expr → First
  | .lit v _ => litFirst v
  | .un op _ => if op = .neg then .dash else .other
  | .bin op l _ => if needsParen op.prec l.prec true then .paren else l.first
  | .not v => if v.negatable then v.first else .other
  | .isNull v => if needsParen (some 3) v.prec true then .paren else v.first
  | .between v _ _ => if needsParen (some 3) v.prec true then .paren else v.first
  | .inQuery v _ => if needsParen (some 3) v.prec true then .paren else v.first
  | .inList v _ => if needsParen (some 3) v.prec true then .paren else v.first
  | .like v _ _ => if needsParen (some 3) v.prec true then .paren else v.first
  | .row _ => .paren
  | .lam ins _ => if ins.length > 1 then .paren else .other
  | .subscript v _ => v.first
  | _ => .other

/-- The query has no WITH clause. -/
def Query.noWith : Query → Prop
  | .mk _ _ _ _ w => w = []

mutual
/-- `item`: the expression stands where an alias and a star may stand. -/
def Expr.Tidy (item : Bool) : Expr → Prop
  | .lit v _ => LitOk v
  | .field n t _ => NameOk n ∧ IfAny NameOk (truthy t)
  | .fieldOf _ _ _ => False
  | .alias v n => item = true ∧ NameOk n ∧ v.Tidy false
  | .star t _ => item = true ∧ IfAny IsWord (truthy t)
  | .starOf _ _ => False
  | .aliasedStar _ _ => False
  | .var n => IsWord n
  | .lam ins b => ins ≠ [] ∧ (∀ n ∈ ins, IsWord n) ∧ b.Tidy false
  | .un op v => v.Tidy false ∧ (op = .neg → needsParen (some 8) v.prec true = true ∨ v.first ≠ .dash)
  | .bin _ l r => l.Tidy false ∧ r.Tidy false
  | .not v => v.Tidy false
  | .isNull v => v.Tidy false
  | .between v l u => v.Tidy false ∧ l.Tidy false ∧ u.Tidy false
  | .array vs => Expr.Tidys false vs
  | .inQuery v q => v.Tidy false ∧ q.Tidy
  | .inList v es => v.Tidy false ∧ Expr.Tidys false es
  | .like v p e => v.Tidy false ∧ p.Tidy false ∧ Expr.TidyOpt e
  | .typeCtor v t => StrOk v ∧ IsWord t
  | .row vs => Expr.Tidys false vs
  | .interval _ _ _ => False
  | .cast _ e _ => e.Tidy false
  | .subscript v i => v.Tidy false ∧ i.Tidy false
  | .case v bs e => Expr.TidyOpt v ∧ bs ≠ [] ∧ Expr.TidyWhens bs ∧ Expr.TidyOpt e
  | .func _ as => Expr.Tidys false as
  | .agg _ as ob fl w ign => Expr.Tidys (isStarArg as) as ∧ (isStarArg as = true → ob = [] ∧ ign = false) ∧ (as = [] → ob = []) ∧ Ord.Tidys ob ∧ Expr.TidyOpt fl ∧ Win.TidyOpt w
  | .listagg v sep ov ob => v.Tidy false ∧ StrOk sep ∧ IfAny (fun f => StrOk f.1) ov ∧ Ord.Tidys ob
  | .curTime _ p => 0 ≤ p
  | .session _ => True
  | .normalize _ _ => False
  | .query _ => False
def Expr.TidyOpt : Option Expr → Prop
  | none => True
  | some e => e.Tidy false
def Win.TidyOpt : Option Win → Prop
  | none => True
  | some w => w.Tidy
def GroupBy.TidyOpt : Option GroupBy → Prop
  | none => True
  | some g => g.Tidy
def Rel.TidyOpt : Option Rel → Prop
  | none => True
  | some r => r.Tidy
def Crit.TidyOpt : Option Crit → Prop
  | none => True
  | some c => c.Tidy
def Expr.Tidys (item : Bool) : List Expr → Prop
  | [] => True
  | e :: es => e.Tidy item ∧ Expr.Tidys item es
def Expr.TidyWhens : List (Expr × Expr) → Prop
  | [] => True
  | (c, v) :: bs => c.Tidy false ∧ v.Tidy false ∧ Expr.TidyWhens bs
def Ord.Tidy : Ord → Prop
  | .mk v _ _ => v.Tidy false
def Ord.Tidys : List Ord → Prop
  | [] => True
  | x :: xs => x.Tidy ∧ Ord.Tidys xs
def Bound.Tidy : Bound → Prop
  | .bounded _ e => e.Tidy false
  | .unbounded _ => True
  | .current => True
def Win.Tidy : Win → Prop
  | .mk p ob ps _ st en => IfAny IsWord (truthy p) ∧ Ord.Tidys ob ∧ Expr.Tidys false ps ∧ st.Tidy ∧ en.Tidy
def Grp.Tidy : Grp → Prop
  | .set vs => Expr.Tidys false vs
  | .sets gs => Expr.TidyLists gs
  | .cube vs => Expr.Tidys false vs
  | .rollup vs => Expr.Tidys false vs
def Expr.TidyLists : List (List Expr) → Prop
  | [] => True
  | vs :: gs => Expr.Tidys false vs ∧ Expr.TidyLists gs
def Grp.Tidys : List Grp → Prop
  | [] => True
  | g :: gs => g.Tidy ∧ Grp.Tidys gs
def GroupBy.Tidy : GroupBy → Prop
  | .mk gs _ => gs ≠ [] ∧ Grp.Tidys gs
def Query.Tidy : Query → Prop
  | .mk body off lim ob w => body.Tidy ∧ IfAny (fun n => 0 ≤ n) off ∧ IfAny (fun n => 0 ≤ n) lim ∧ Ord.Tidys ob ∧ Named.Tidys w
def QBody.Tidy : QBody → Prop
  | .select items fr wh gb hv _ wins => items ≠ [] ∧ Expr.Tidys true items ∧ Rel.TidyOpt fr ∧ Expr.TidyOpt wh ∧ GroupBy.TidyOpt gb ∧ Expr.TidyOpt hv ∧ Win.TidyNamed wins
  | .set _ l r _ => l.Tidy ∧ r.Tidy ∧ l.noWith ∧ r.noWith
  | .table t => TableOk t
  | .values es => es ≠ [] ∧ Expr.Tidys false es
def Win.TidyNamed : List (Str × Win) → Prop
  | [] => True
  | (n, w) :: ws => IsWord n ∧ w.Tidy ∧ Win.TidyNamed ws
def Named.Tidy : Named → Prop
  | .mk r a cols => r.Tidy ∧ NameOk a ∧ ∀ n ∈ cols, IsWord n
/-- A named query of a WITH clause; with column names its text is outside the grammar. -/
def Named.TidyWith : Named → Prop
  | .mk r a cols => r.Tidy ∧ r.isQuery = true ∧ NameOk a ∧ cols = []
def Named.Tidys : List Named → Prop
  | [] => True
  | n :: ns => n.TidyWith ∧ Named.Tidys ns
def Rel.Tidy : Rel → Prop
  | .table t => TableOk t
  | .query q => q.Tidy
  | .aliased n => n.Tidy
  | .join l r t nat cr => l.Tidy ∧ r.Tidy ∧ JoinOk t nat cr.isSome ∧ Crit.TidyOpt cr
  | .unnest as ord => Expr.Tidys false as ∧ ord = false
  | .lateral q => q.Tidy
  | .sample r _ p => r.Tidy ∧ p.Tidy false
def Crit.Tidy : Crit → Prop
  | .using cols => cols ≠ [] ∧ ∀ n ∈ cols, IsWord n
  | .on e => e.Tidy false
end

end Treeno
