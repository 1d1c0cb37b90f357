import Verif.Schema
import Verif.Spec.TreeMap
import Verif.Spec.Columns
/-!
# What resolving should do
-/
namespace Treeno.Spec

/-- The columns of the list that are not in `seen`, each once, in order. -/
def fresh (seen : List Col) : List Col → List Col
  | [] => []
  | f :: fs => if f ∈ seen then fresh seen fs else f :: fresh (f :: seen) fs

/-- The same set of relation names. -/
def SameIds (a b : List Str) : Prop := ∀ n, n ∈ a ↔ n ∈ b

/-- Exactly one column of `fs` satisfies `p`, namely `f`. -/
def TheOnly (p : Col → Prop) (f : Col) (fs : List Col) : Prop :=
  ∃ l r, fs = l ++ f :: r ∧ p f ∧ (∀ g ∈ l, ¬ p g) ∧ ∀ g ∈ r, ¬ p g

/-- At least two columns of `fs` satisfy `p`. -/
def Several (p : Col → Prop) (fs : List Col) : Prop :=
  ∃ l f m g r, fs = l ++ f :: (m ++ g :: r) ∧ p f ∧ p g

/-- `gs` are the columns of `fs` that satisfy `p`, in their order. -/
inductive Chosen (p : Col → Prop) : List Col → List Col → Prop
  | nil : Chosen p [] []
  | take {f fs gs} : p f → Chosen p fs gs → Chosen p (f :: fs) (f :: gs)
  | skip {f fs gs} : ¬ p f → Chosen p fs gs → Chosen p (f :: fs) gs

/-- The column is called `n`. -/
def Called (n : Str) (f : Col) : Prop := f.name = some n

/-- The column belongs to the relation `t`. -/
def Of (t : Str) (f : Col) : Prop := f.source.identifier = some t

/-- How an unqualified column reference may change: it takes the type of the only column of its name,
or there is none and it stays. -/
def Resolved (s : Schema) (c c' : Column) : Prop :=
  c'.name = c.name ∧ c'.table = c.table ∧
  (c.table = none → (∃ f, TheOnly (Called c.name) f s.fields ∧ c'.ty = f.ty) ∨
    ((∀ f ∈ s.fields, ¬ Called c.name f) ∧ c'.ty = c.ty))

/-- Forget the types a tree carries for columns and stars (`forgetNode`) and the columns its tables
remember (`forgetTable`). -/
def forgetNode : Expr → Expr
  | .field n t _ => .field n t .unknown
  | .fieldOf n b _ => .fieldOf n b .unknown
  | .star t _ => .star t .unknown
  | .starOf b _ => .starOf b .unknown
  | e => e
def forgetTable (t : TableRef) : TableRef := { t with cols := [] }

/-- Forget the types of stars. -/
def forgetStar : Expr → Expr
  | .star t _ => .star t .unknown
  | .starOf b _ => .starOf b .unknown
  | e => e

/-- Replace every unqualified column named in `ins` by the variable of that name. -/
def bindNode (ins : List Str) : Expr → Expr
  | .field n none t => if n ∈ ins then .var n else .field n none t
  | e => e

/-- The name of an output column. -/
def outputName : Expr → Option Str
  | .field n _ _ => some n
  | .fieldOf n _ _ => some n
  | .alias _ n => some n
  | .var n => some n
  | _ => none

/-- What UNNEST makes of a column's type: the elements of an array, otherwise unknown. -/
def Element (t u : Ty) : Prop := t = .array u ∨ ((∀ v, t ≠ .array v) ∧ u = .unknown)

end Treeno.Spec
