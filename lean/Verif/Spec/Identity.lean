import Verif.Object
/-!
# What `equals` sees

`x.Proper`: keys of dicts and attributes of objects are distinct, as in Python.

`x.shape`: what `equals` does not look at: the classes of everything below the top, the order of the keys of dicts,
and the sign of zero and the exponents of decimals.  Two objects of the same shape differ at most in the values of
their constants.
-/
set_option autoImplicit false
namespace Treeno
namespace Spec

/-- The class of a constant; of a decimal also sign and exponent. -/
def blank : Scalar → Scalar
  | .bool _ => .bool false
  | .int _ => .int 0
  | .float _ => .float []
  | .dec d => .dec { d with coeff := 0 }
  | .str _ => .str []

end Spec

mutual
def Obj.Proper : Obj → Prop
  | .dict d => (d.map Prod.fst).Nodup ∧ Obj.Propers d
  | .inst _ as => (as.map Prod.fst).Nodup ∧ Obj.Propers as
  | .list l => Obj.ProperList l
  | .none => True
  | .scalar _ => True
  | .enum _ _ => True
  | .rel _ => True
def Obj.ProperList : List Obj → Prop
  | [] => True
  | x :: r => x.Proper ∧ Obj.ProperList r
def Obj.Propers : List (Str × Obj) → Prop
  | [] => True
  | (_, v) :: r => v.Proper ∧ Obj.Propers r
end

mutual
def Obj.shape : Obj → Obj
  | .none => .none
  | .scalar s => .scalar (Spec.blank s)
  | .enum c _ => .enum c []
  | .rel _ => .rel .query
  | .list l => .list (Obj.shapeList l)
  | .dict d => .dict (Obj.shapes d)
  | .inst c as => .inst c (Obj.shapes as)
def Obj.shapeList : List Obj → List Obj
  | [] => []
  | x :: r => x.shape :: Obj.shapeList r
def Obj.shapes : List (Str × Obj) → List (Str × Obj)
  | [] => []
  | (k, v) :: r => (k, v.shape) :: Obj.shapes r
end

end Treeno
