import Verif.Types
/-!
# Specification of data types

Which types exist, with which parameters, and which parameter values are defaults.
-/
namespace Treeno.Spec
open Treeno

/-- The range checks on the parameters of a type (not of its component types). -/
def InRange : Ty → Prop
  | .decimal p _ => 0 ≤ p ∧ p ≤ 38
  | .time (some p) _ | .timestamp (some p) _ => 0 ≤ p ∧ p ≤ 12
  | _ => True

instance (t : Ty) : Decidable (InRange t) := by
  unfold InRange; split <;> infer_instance

/-- The parameters each type name has. -/
def declaredParams (typeName : Str) : List Str :=
  if typeName = c% "DECIMAL" then [c% "precision", c% "scale"]
  else if typeName = c% "VARCHAR" then [c% "max_chars"]
  else if typeName = c% "CHAR" then [c% "max_chars"]
  else if typeName = c% "TIME" then [c% "precision", c% "timezone"]
  else if typeName = c% "TIMESTAMP" then [c% "precision", c% "timezone"]
  else if typeName = c% "ARRAY" then [c% "dtype"]
  else if typeName = c% "MAP" then [c% "from_dtype", c% "to_dtype"]
  else if typeName = c% "ROW" then [c% "dtypes"]
  else if typeName = c% "INTERVAL" then [c% "from_interval", c% "to_interval"]
  else if typeName = c% "QDIGEST" then [c% "dtype"]
  else []

/-- The value a parameter takes when it is not supplied. -/
def defaultParam (typeName key : Str) : Option PVal :=
  if typeName = c% "DECIMAL" ∧ key = c% "precision" then some (.int 38)
  else if typeName = c% "DECIMAL" ∧ key = c% "scale" then some (.int 0)
  else if typeName = c% "CHAR" ∧ key = c% "max_chars" then some (.int 1)
  else if (typeName = c% "TIME" ∨ typeName = c% "TIMESTAMP") ∧ key = c% "timezone" then
    some (.bool false)
  else none

/-- The supplied parameters describe the type: every supplied parameter is a parameter of the type
with that value, and every other parameter of the type has its default value. -/
def Describes (supplied : List (Str × PVal)) (t : Ty) : Prop :=
  ∀ k : Str,
    match dget k supplied with
    | some v => dget k t.params = some v
    | none => dget k t.params = defaultParam t.typeName k

/-- The type and all component types are in range. -/
inductive Valid : Ty → Prop
  | simple (s) : Valid (.simple s)
  | decimal (p s) : 0 ≤ p → p ≤ 38 → Valid (.decimal p s)
  | varchar (n) : Valid (.varchar n)
  | char (n) : Valid (.char n)
  | time (p z) : (∀ q, p = some q → 0 ≤ q ∧ q ≤ 12) → Valid (.time p z)
  | timestamp (p z) : (∀ q, p = some q → 0 ≤ q ∧ q ≤ 12) → Valid (.timestamp p z)
  | interval (k) : Valid (.interval k)
  | array (t) : Valid t → Valid (.array t)
  | map (a b) : Valid a → Valid b → Valid (.map a b)
  | row (l) : (∀ t ∈ l, Valid t) → Valid (.row l)
  | qdigest (t) : Valid t → Valid (.qdigest t)

/-- The data types occurring in a parameter value are valid. -/
def PValOk : PVal → Prop
  | .dtype t => Valid t
  | .list l => ∀ t, PVal.dtype t ∈ l → Valid t
  | _ => True

end Treeno.Spec
