import Verif.Spec.LitsOf
import Verif.Convert
/-!
# The constants that are read

What a `Literal` of a tree that was read from a text holds, with its type.
-/
set_option autoImplicit false
namespace Treeno.Spec

inductive ReadLit : Option Scalar × Ty → Prop
  | null : ReadLit (none, .unknown)
  | bool (b : Bool) : ReadLit (some (.bool b), .boolean)
  | int (n : Int) : ReadLit (some (.int n), inferIntegral n)
  | dec {d : Dec} {t : Ty} (minus : Bool) (h : inferDecimal d = .ok t) : ReadLit (some (.dec (if minus then d.negate else d)), t)
  | float (s : Str) : ReadLit (some (.float s), .simple .double)
  | str {s : Str} {t : Ty} (h : mkType (c% "VARCHAR") [(c% "max_chars", .int s.length)] = .ok t) : ReadLit (some (.str s), t)

def ReadLits (l : List (Option Scalar × Ty)) : Prop := ∀ p ∈ l, ReadLit p

end Treeno.Spec
