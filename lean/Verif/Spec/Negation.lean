import Verif.Spec.Grouping
/-!
# Negated predicates
-/
set_option autoImplicit false
namespace Treeno.Spec

/-- `a` is the text of the operand `v`: with or without parentheses. -/
def Operand (v : Expr) (o : Opts) (a : Str) : Prop := v.sql o = .ok a ∨ Wrapped v a

end Treeno.Spec
