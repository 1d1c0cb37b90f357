import Verif.Ast
/-!
# What a listing of columns should look like

One line per column, in order: its name, ` - `, its type.
-/
set_option autoImplicit false
namespace Treeno.Spec

/-- `text` lists the columns, `line c l` saying how a column may be written. -/
inductive Lists (line : Col → Str → Prop) : List Col → Str → Prop
  | one {c : Col} {l : Str} (h : line c l) : Lists line [c] l
  | more {c : Col} {l : Str} {cs : List Col} {t : Str} (h : line c l) (ht : Lists line cs t) : Lists line (c :: cs) (l ++ '\n' :: t)

/-- A named column of a known type. -/
inductive PlainLine : Col → Str → Prop
  | mk (n : Str) (k : Key) (t : Ty) (h : t ≠ .unknown) : PlainLine ⟨some n, k, t⟩ (n ++ c% " - " ++ t.sql)

end Treeno.Spec
