import Verif.Spec.Fits
/-!
# Operands and parentheses

The levels (`opLevel`, `leftLevel`, `rightLevel`, `Expr.level`, Spec/Fits.lean) are those of the grammar's rules,
treeno/grammar/SqlBase.g4 (`expression`, `booleanExpression`, `predicate`, `valueExpression`,
`primaryExpression`).  An operand of a level lower than its place asks for needs parentheses.
-/
set_option autoImplicit false
namespace Treeno.Spec

/-- `a` is the text of `v` in parentheses. -/
def Wrapped (v : Expr) (a : Str) : Prop := ∃ d, v.sql {} = .ok d ∧ a = c% "(" ++ d ++ c% ")"

/-- The words of an operator. -/
def opWords : BinOp → List Str
  | .add => [c% "+"] | .sub => [c% "-"] | .mul => [c% "*"] | .div => [c% "/"] | .mod => [c% "%"]
  | .eq => [c% "="] | .ne => [c% "<>"] | .gt => [c% ">"] | .ge => [c% ">="] | .lt => [c% "<"] | .le => [c% "<="]
  | .and => [c% "AND"] | .or => [c% "OR"] | .distinct => [c% "IS", c% "DISTINCT", c% "FROM"]

def isComparison : Expr → Bool
  | .bin .eq _ _ | .bin .ne _ _ | .bin .gt _ _ | .bin .ge _ _ | .bin .lt _ _ | .bin .le _ _ => true
  | _ => false

def isDistinct : Expr → Bool
  | .bin .distinct _ _ => true
  | _ => false

def isPredicate : Expr → Bool
  | .isNull _ | .between _ _ _ | .inQuery _ _ | .inList _ _ | .like _ _ _ => true
  | _ => false

def comparison : BinOp → Bool
  | .eq | .ne | .gt | .ge | .lt | .le => true
  | _ => false

/-- The operators that have no entry in the table of precedences: a lambda expression and
`IS DISTINCT FROM`. -/
def unranked (v : Expr) : Bool := isLambda v || isDistinct v

/-- The left operands that are left without parentheses although they need them. -/
def leftForgotten (op : BinOp) (l : Expr) : Bool :=
  unranked l || op == .distinct || (comparison op && isComparison l)

/-- The right operands that are left without parentheses although they need them. -/
def rightForgotten (op : BinOp) (r : Expr) : Bool := unranked r || op == .distinct

/-- The operands of IS NULL, BETWEEN, IN and LIKE that are left without parentheses although they need
them. -/
def predForgotten (v : Expr) : Bool := unranked v || isComparison v || isPredicate v

end Treeno.Spec
