import Verif.Spec.Fits
import Verif.Spec.QueryText
/-!
# Order terms, groupings and windows as they are written
-/
set_option autoImplicit false
namespace Treeno.Spec
open Treeno

/-- The direction of an order term as it can be written; silence means ascending. -/
inductive Dir
  | silent | asc | desc
  deriving DecidableEq, Repr

/-- Where the nulls go, as it can be written; silence means last. -/
inductive Nulls
  | silent | first | last
  deriving DecidableEq, Repr

def Dir.text : Dir → Str
  | .silent => []
  | .asc => c% " ASC"
  | .desc => c% " DESC"

def Nulls.text : Nulls → Str
  | .silent => []
  | .first => c% " NULLS FIRST"
  | .last => c% " NULLS LAST"

/-- An order term somebody writes: a value, a text of the value, and what follows. -/
structure WrittenTerm where
  value : Expr
  text : Str
  dir : Dir
  nulls : Nulls

def WrittenTerm.full (w : WrittenTerm) : Str := w.text ++ w.dir.text ++ w.nulls.text

/-- The term that is meant. -/
def WrittenTerm.term (w : WrittenTerm) : Ord := .mk w.value.reread (w.dir = .desc) (w.nulls = .first)

/-- The text is a text of the value, which can be read back (see `C13_round_trip_partial`). -/
def WrittenTerm.Ok (w : WrittenTerm) : Prop :=
  w.value.Tidy false ∧ w.value.Fits ∧ (∃ t, w.value.reread.check = .ok t) ∧ ∃ o, w.value.sql o = .ok w.text

/-- The shortest way to write a term. -/
def leastDir (desc : Bool) : Dir := if desc then .desc else .silent
def leastNulls (first : Bool) : Nulls := if first then .first else .silent

/-- The frame of a window in words. -/
def frameWord : FrameType → Str
  | .range => c% "RANGE"
  | .rows => c% "ROWS"
  | .groups => c% "GROUPS"

def sideWord : BoundType → Str
  | .preceding => c% "PRECEDING"
  | .following => c% "FOLLOWING"

/-- The text of a bound of a frame. -/
def BoundText (o : Opts) : Bound → Str → Prop
  | .bounded t e, s => ∃ x, e.sql o = .ok x ∧ s = x ++ c% " " ++ sideWord t
  | .unbounded t, s => s = c% "UNBOUNDED " ++ sideWord t
  | .current, s => s = c% "CURRENT ROW"

/-- The parts of a window in the order of the grammar (SqlBase.g4 277-282). -/
def windowClauses (o : Opts) : Win → List Clause
  | .mk p ob ps f st en =>
    [⟨p.getD [], ∃ c s, p = some (c :: s), fun v => v = []⟩,
     ⟨c% "PARTITION", ps ≠ [], ListOf o (c% "BY ") (fun e s => e.sql o = .ok s) ps⟩,
     hasOrder o ob,
     ⟨frameWord f, True, fun v => ∃ a b, BoundText o st a ∧ BoundText o en b ∧ v = c% "BETWEEN " ++ a ++ c% " AND " ++ b⟩]

end Treeno.Spec
