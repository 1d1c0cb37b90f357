import Verif.Tree
/-!
# What a displayed tree shows
-/
set_option autoImplicit false
namespace Treeno.Spec

/-- The tree occurs in the other. -/
inductive Occurs (t : PTree) : PTree → Prop
  | here : Occurs t t
  | inside {l : Str} {ks : List PTree} {k : PTree} (hk : k ∈ ks) (h : Occurs t k) : Occurs t (.node l ks)

/-- A node of this class with these attributes is shown in the tree: its own picture is there, under the name of the
class.  (A named window may have another label.) -/
def NodeShown (c : Cls) (as : List (Str × Obj)) (t : PTree) : Prop :=
  ∃ l ks, (Obj.inst c as).treeify = .ok (.node c.name ks) ∧ Occurs (.node l ks) t ∧ (l = c.name ∨ c = .window)

end Treeno.Spec
