import Verif.Types
/-!
# Which types can be read back from their text
-/
namespace Treeno.Spec
open Treeno

/-- No negative length, precision or scale and no empty ROW, at any depth. -/
inductive Readable : Ty → Prop
  | simple (s) : Readable (.simple s)
  | decimal (p s) : 0 ≤ p → 0 ≤ s → Readable (.decimal p s)
  | varchar (n) : (∀ m, n = some m → 0 ≤ m) → Readable (.varchar n)
  | char (n) : 0 ≤ n → Readable (.char n)
  | time (p z) : (∀ q, p = some q → 0 ≤ q) → Readable (.time p z)
  | timestamp (p z) : (∀ q, p = some q → 0 ≤ q) → Readable (.timestamp p z)
  | interval (k) : Readable (.interval k)
  | array (t) : Readable t → Readable (.array t)
  | map (a b) : Readable a → Readable b → Readable (.map a b)
  | row (l) : l ≠ [] → (∀ t ∈ l, Readable t) → Readable (.row l)
  | qdigest (t) : Readable t → Readable (.qdigest t)

end Treeno.Spec
