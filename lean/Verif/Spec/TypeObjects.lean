import Verif.TypeObjects
import Verif.Spec.TypeSpec
/-!
# What a data type object stands for

`o.Is h t`: the object `o`, whose parameters are in one of the dicts `h`, is the type `t`.
-/
set_option autoImplicit false
namespace Treeno.Spec
open Treeno

def _root_.Treeno.TypeObj.Is (h : Dicts) (o : TypeObj) (t : Ty) : Prop :=
  o.name = t.typeName ∧ ∃ d, h[o.params]? = some d ∧ ∀ k, dget k d = dget k t.params

/-- The type each builder function is named after. -/
def named : Builder → Str
  | .boolean => c% "BOOLEAN" | .tinyint => c% "TINYINT" | .smallint => c% "SMALLINT" | .integer => c% "INTEGER"
  | .bigint => c% "BIGINT" | .real => c% "REAL" | .double => c% "DOUBLE" | .decimal => c% "DECIMAL"
  | .varchar => c% "VARCHAR" | .char => c% "CHAR" | .varbinary => c% "VARBINARY" | .json => c% "JSON" | .date => c% "DATE"
  | .time => c% "TIME" | .timestamp => c% "TIMESTAMP" | .interval => c% "INTERVAL" | .array => c% "ARRAY" | .map => c% "MAP"
  | .row => c% "ROW" | .unknown => c% "UNKNOWN" | .ip => c% "IPADDRESS" | .uuid => c% "UUID" | .hll => c% "HYPERLOGLOG"
  | .p4hll => c% "P4HYPERLOGLOG" | .qdigest => c% "QDIGEST" | .tdigest => c% "TDIGEST"

/-- The result of one builder call that succeeds: the type with the builder's name and the given parameters, the others at
their defaults. -/
def Built (b : Builder) (kwargs : Dict) (t : Ty) : Prop :=
  t.typeName = named b ∧ InRange t ∧ Describes kwargs t

/-- A sequence of builder calls, one after the other. -/
def calls : List (Builder × Dict) → Dicts → List (Except Err TypeObj) × Dicts
  | [], h => ([], h)
  | (b, kw) :: r, h =>
    let p := b.call kw h
    let q := calls r p.2
    (p.1 :: q.1, q.2)

end Treeno.Spec
