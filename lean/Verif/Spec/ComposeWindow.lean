import Verif.Spec.ComposeParts
/-!
# Calls with windows put together from texts

What a user writes to call an aggregate over texts: sort keys inside the call, FILTER, IGNORE or RESPECT NULLS, and OVER
with a window or the name of one.
-/
set_option autoImplicit false
namespace Treeno.Spec

/-- A bound of a frame: unbounded, the current row, or a number of rows; `true` is FOLLOWING. -/
inductive BoundPart
  | unbounded (following : Bool)
  | current
  | rows (count : Str) (following : Bool)

def sideText : Bool → Str
  | false => c% " PRECEDING "
  | true => c% " FOLLOWING "

def sideOf : Bool → BoundType
  | false => .preceding
  | true => .following

def BoundPart.text : BoundPart → Str
  | .unbounded f => c% " UNBOUNDED " ++ sideText f
  | .current => c% " CURRENT ROW "
  | .rows s f => ' ' :: (par s ++ sideText f)

inductive BoundRead : BoundPart → Bound → Prop
  | unbounded {f : Bool} : BoundRead (.unbounded f) (.unbounded (sideOf f))
  | current : BoundRead .current .current
  | rows {s : Str} {f : Bool} {e : Expr} : Text s e → BoundRead (.rows s f) (.bounded (sideOf f) e)

/-- A frame: none, one with its first bound, or one with both. -/
inductive FramePart
  | none
  | from_ (type : FrameType) (first : BoundPart)
  | between (type : FrameType) (first last : BoundPart)

def frameLead : FrameType → Str
  | .range => c% " RANGE "
  | .rows => c% " ROWS "
  | .groups => c% " GROUPS "

def FramePart.text : FramePart → Str
  | .none => []
  | .from_ t a => frameLead t ++ a.text
  | .between t a b => frameLead t ++ (c% " BETWEEN " ++ (a.text ++ (c% " AND " ++ b.text)))

/-- A frame that is not written is from the first row of the partition to the current row, by RANGE; a last bound that is
not written is the current row. -/
inductive FrameRead : FramePart → FrameType → Bound → Bound → Prop
  | none : FrameRead .none .range (.unbounded .preceding) .current
  | from_ {t : FrameType} {a : BoundPart} {x : Bound} : BoundRead a x → FrameRead (.from_ t a) t x .current
  | between {t : FrameType} {a b : BoundPart} {x y : Bound} : BoundRead a x → BoundRead b y → FrameRead (.between t a b) t x y

/-- A window: the window it extends, its partitions, its order and its frame, as far as they are written. -/
structure WinPart where
  parent : Option Str
  partitions : List Str
  order : List SortText
  frame : FramePart

def WinPart.text (w : WinPart) : Str :=
  nameText w.parent ++ (listClause (c% " PARTITION BY ") (parList w.partitions) w.partitions.isEmpty ++
    (listClause (c% " ORDER BY ") (sortText w.order) w.order.isEmpty ++ w.frame.text))

inductive WinRead (w : WinPart) : Win → Prop
  | mk {es : List Expr} {os : List Ord} {t : FrameType} {x y : Bound} : (∀ n, w.parent = some n → '"' ∉ n) →
      Each Text w.partitions es → Each SortRead w.order os → FrameRead w.frame t x y →
      WinRead w (.mk w.parent os es t x y)

/-- What OVER refers to: a window by its name, or one that is written out. -/
inductive OverPart
  | name (n : Str)
  | window (w : WinPart)

def OverPart.text : OverPart → Str
  | .name n => c% " OVER " ++ (quoted n ++ c% " ")
  | .window w => c% " OVER " ++ (c% "(" ++ (w.text ++ c% ")"))

inductive OverRead : OverPart → Win → Prop
  | name {n : Str} : '"' ∉ n → OverRead (.name n) (.mk (some n) [] [] .range (.unbounded .preceding) .current)
  | window {w : WinPart} {x : Win} : WinRead w x → OverRead (.window w) x

/-- The condition on the rows that are aggregated. -/
def filterText : Option Str → Str
  | none => []
  | some s => c% " FILTER " ++ (c% "(" ++ (c% "WHERE " ++ (par s ++ c% ")")))

/-- What happens to NULLs: `true` is IGNORE. -/
def treatText : Option Bool → Str
  | none => []
  | some true => c% " IGNORE NULLS "
  | some false => c% " RESPECT NULLS "

/-- OVER with what happens to NULLs, or nothing. -/
def overText : Option (Option Bool × OverPart) → Str
  | none => []
  | some o => treatText o.1 ++ o.2.text

inductive OverOpt : Option (Option Bool × OverPart) → Option Win → Bool → Prop
  | none : OverOpt none none false
  | some {n : Option Bool} {o : OverPart} {w : Win} : OverRead o w → OverOpt (some (n, o)) (some w) (n.getD false)

/-- The parts of a call. -/
structure CallParts where
  args : List Str
  order : List SortText
  filter : Option Str
  over : Option (Option Bool × OverPart)

def CallParts.text (name : Str) (x : CallParts) : Str :=
  name ++ (c% "(" ++ (parList x.args ++ (listClause (c% " ORDER BY ") (sortText x.order) x.order.isEmpty ++ (c% ")" ++
    (filterText x.filter ++ overText x.over)))))

end Treeno.Spec
