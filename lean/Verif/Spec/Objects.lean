import Verif.Heap
import Verif.Spec.Schemas
import Verif.Spec.TreeMap
/-!
# What a heap of relation objects stands for

`R.At h r fp`: the object `r` of the heap `h` unfolds to the tree `R`, and `fp` lists the objects met on the way, once for every
place they are used at.  Nothing is shared when `fp` has no duplicates.
-/
set_option autoImplicit false
namespace Treeno
open Spec

mutual
def Query.At (h : Heap) (r : Ref) (fp : List Ref) : Query → Prop
  | .mk b off lim ob w => ∃ ws fw fb, b.At h r fb off lim ob ws ∧ Named.Ats h ws fw w ∧ fp = r :: (fw ++ fb)
def QBody.At (h : Heap) (r : Ref) (fb : List Ref) (off lim : Option Int) (ob : List Ord) (ws : List Ref) : QBody → Prop
  | .select items fr wh gb hv d wins => ∃ f dt, h r = some (.select items f wh gb hv d wins off lim ob ws dt) ∧
      Rel.AtOpt h f fb fr
  | .set k l r' d => ∃ a b dt fa fb', h r = some (.set k a b d off lim ob ws dt) ∧ l.At h a fa ∧ r'.At h b fb' ∧
      fb = fa ++ fb'
  | .table t => ∃ a dt, h r = some (.tableQ a off lim ob ws dt) ∧ h a = some (.table t) ∧ fb = [a]
  | .values es => ∃ dt, h r = some (.values es off lim ob ws dt) ∧ fb = []
def Rel.AtOpt (h : Heap) (f : Option Ref) (fp : List Ref) : Option Rel → Prop
  | none => f = none ∧ fp = []
  | some r => ∃ a, f = some a ∧ r.At h a fp
def Named.Ats (h : Heap) (ws : List Ref) (fp : List Ref) : List Named → Prop
  | [] => ws = [] ∧ fp = []
  | n :: ns => ∃ a as fa fas, ws = a :: as ∧ n.At h a fa ∧ Named.Ats h as fas ns ∧ fp = fa ++ fas
def Named.At (h : Heap) (r : Ref) (fp : List Ref) : Named → Prop
  | .mk rel a cols => ∃ f fa, h r = some (.aliased f a cols) ∧ rel.At h f fa ∧ fp = r :: fa
def Rel.At (h : Heap) (r : Ref) (fp : List Ref) : Rel → Prop
  | .table t => h r = some (.table t) ∧ fp = [r]
  | .query q => q.At h r fp
  | .aliased n => n.At h r fp
  | .join l r' t nat cr => ∃ a b fa fb, h r = some (.join a b t nat cr) ∧ l.At h a fa ∧ r'.At h b fb ∧
      fp = r :: (fa ++ fb)
  | .unnest as o => ∃ dt, h r = some (.unnest as o dt) ∧ fp = [r]
  | .lateral q => ∃ a fa, h r = some (.lateral a) ∧ q.At h a fa ∧ fp = r :: fa
  | .sample rel t p => ∃ a fa, h r = some (.sample a t p) ∧ rel.At h a fa ∧ fp = r :: fa
end

/-- The relations an object refers to. -/
def RelObj.kids : RelObj → List Ref
  | .table _ | .unnest _ _ _ => []
  | .select _ f _ _ _ _ _ _ _ _ w _ => w ++ f.toList
  | .set _ a b _ _ _ _ w _ => w ++ [a, b]
  | .tableQ t _ _ _ w _ => w ++ [t]
  | .values _ _ _ _ w _ => w
  | .aliased r _ _ | .lateral r | .sample r _ _ => [r]
  | .join a b _ _ _ => [a, b]

/-- `b` is used, directly or not, by `a`. -/
inductive UsesObj (h : Heap) : Ref → Ref → Prop
  | here (a : Ref) : UsesObj h a a
  | step {a b c : Ref} {o : RelObj} : h a = some o → b ∈ o.kids → UsesObj h b c → UsesObj h a c

/-- An object but for types and remembered columns. -/
def RelObj.forget : RelObj → RelObj
  | .table t => .table (forgetTable t)
  | .select items f wh gb hv d wins off lim ob w _ =>
    .select (mapExprs forgetNode forgetTable items) f wh gb hv d wins off lim ob w .unknown
  | .set k a b d off lim ob w dt => .set k a b d off lim ob w dt
  | .tableQ t off lim ob w _ => .tableQ t off lim ob w .unknown
  | .unnest as o _ => .unnest (mapExprs forgetNode forgetTable as) o .unknown
  | o => o

/-- `h'` has the objects of `h`, with the same attributes but for types and remembered columns. -/
def Heap.Alike (h h' : Heap) : Prop := ∀ a, (h' a).map RelObj.forget = (h a).map RelObj.forget

/-- The attribute `data_type` of a query. -/
def RelObj.dataType : RelObj → Option Ty
  | .select _ _ _ _ _ _ _ _ _ _ _ t | .set _ _ _ _ _ _ _ _ t | .tableQ _ _ _ _ _ t | .values _ _ _ _ _ t => some t
  | _ => none

/-- `r.resolve(s)` on the objects `h` ends with the answer or exception `o` and leaves the objects `h'`. -/
def Resolves (h : Heap) (s : Schema) (r : Ref) (o : Except Err Schema) (h' : Heap) : Prop :=
  ∃ n, resolveAt n s r h = some (o, h')

end Treeno
