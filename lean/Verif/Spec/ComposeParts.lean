import Verif.Spec.Compose
/-!
# Names and sort keys in texts that are put together
-/
set_option autoImplicit false
namespace Treeno.Spec

/-- A name in double quotes. -/
def quoted (n : Str) : Str := '"' :: (n ++ c% "\"")

/-- A new name, or none. -/
def nameText : Option Str → Str
  | none => []
  | some n => ' ' :: (quoted n ++ c% " ")

/-- Names in double quotes, with commas between them. -/
def namesText : List Str → Str
  | [] => []
  | [n] => quoted n ++ c% " "
  | n :: ns => quoted n ++ (c% " " ++ (c% ", " ++ namesText ns))

/-- A sort key: descending or ascending, NULLs first or last, as far as it is written. -/
structure SortText where
  key : Str
  desc : Option Bool
  nullsFirst : Option Bool

def dirText : Option Bool → Str
  | none => []
  | some true => c% " DESC "
  | some false => c% " ASC "

def nullsText : Option Bool → Str
  | none => []
  | some true => c% " NULLS FIRST "
  | some false => c% " NULLS LAST "

def SortText.text (k : SortText) : Str := par k.key ++ (dirText k.desc ++ nullsText k.nullsFirst)

def sortText : List SortText → Str
  | [] => []
  | [k] => k.text
  | k :: ks => k.text ++ (c% ", " ++ sortText ks)

/-- What is not written is ascending, and NULLs last. -/
def SortRead (k : SortText) (o : Ord) : Prop :=
  ∃ e, Text k.key e ∧ o = .mk e (k.desc.getD false) (k.nullsFirst.getD false)

/-- A clause with a list, left out when the list is empty. -/
def listClause (k body : Str) (empty : Bool) : Str := if empty then [] else k ++ body

end Treeno.Spec
