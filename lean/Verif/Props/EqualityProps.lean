import Verif.Lemmas.Object
import Verif.Lemmas.ObjInj
import Verif.Lemmas.ObjProper
import Verif.Sql
/-!
# C39: `equals`
-/
set_option autoImplicit false
namespace Treeno
open Spec

/-- Dicts inside the node have distinct keys. -/
def Node.Dicts : Node → Prop
  | .expr e => e.Dicts
  | .query q => q.Dicts
  | .rel r => r.Dicts
  | .ord o => o.Dicts
  | .bound b => b.Dicts
  | .win w => w.Dicts
  | .grp g => g.Dicts
  | .groupBy g => g.Dicts
  | .crit c => c.Dicts
  | .table _ => True
  | .type _ => True
  | .when c v => c.Dicts ∧ v.Dicts
  | .else_ e => e.Dicts
  | .config _ _ cr => Crit.DictsOpt cr
  | .filler _ _ => True

namespace Props

theorem node_proper : ∀ (n : Node), n.Dicts → n.obj.Proper
  | .expr e, h => pr_Expr e h
  | .query q, h => pr_Query q h
  | .rel r, h => pr_Rel r h
  | .ord o, h => pr_Ord o h
  | .bound b, h => pr_Bound b h
  | .win w, h => pr_Win w h
  | .grp g, h => pr_Grp g h
  | .groupBy g, h => pr_GroupBy g h
  | .crit c, h => pr_Crit c h
  | .table t, _ => table_proper t
  | .type t, _ => Ty_proper t
  | .when c v, h => inst_proper (by dsimp only [List.map]; decide) ⟨pr_Expr c h.1, pr_Expr v h.2, trivial⟩
  | .else_ e, h => inst_proper (by dsimp only [List.map]; decide) ⟨pr_Expr e h, trivial⟩
  | .config _ _ cr, h => inst_proper (by dsimp only [List.map]; decide) ⟨joinType_proper _, trivial, pr_CritOpt cr h, trivial⟩
  | .filler f c, _ => filler_proper (some (f, c))

theorem node_inst (n : Node) : ∃ c as, n.obj = .inst c as := by
  cases n with
  | expr e => exact Expr_inst e
  | query q => obtain ⟨as, h⟩ := Query_inst q; exact ⟨_, as, h⟩
  | rel r =>
    cases r
    case query q => obtain ⟨as, h⟩ := Query_inst q; exact ⟨_, as, h⟩
    case aliased n => cases n; exact ⟨_, _, rfl⟩
    all_goals exact ⟨_, _, rfl⟩
  | type t => cases t <;> exact ⟨_, _, rfl⟩
  | ord o => cases o; exact ⟨_, _, rfl⟩
  | bound b => cases b <;> exact ⟨_, _, rfl⟩
  | win w => cases w; exact ⟨_, _, rfl⟩
  | grp g => cases g <;> exact ⟨_, _, rfl⟩
  | groupBy g => cases g; exact ⟨_, _, rfl⟩
  | crit c => cases c <;> exact ⟨_, _, rfl⟩
  | table t => exact ⟨_, _, rfl⟩
  | when c v => exact ⟨_, _, rfl⟩
  | else_ e => exact ⟨_, _, rfl⟩
  | config t nat cr => exact ⟨_, _, rfl⟩
  | filler f c => exact ⟨_, _, rfl⟩

theorem equals_iff (a b : Node) : a.equals b = true ↔ clsOf a.obj = clsOf b.obj ∧ a.obj.asdict.pyEq b.obj.asdict = true := by
  unfold Node.equals
  obtain ⟨c, as, ha⟩ := node_inst a
  obtain ⟨c', as', hb⟩ := node_inst b
  rw [ha, hb]
  have e : (Obj.inst c as).equals (.inst c' as') = (c == c' && (Obj.inst c as).asdict.pyEq (Obj.inst c' as').asdict) := rfl
  rw [e, Bool.and_eq_true, beq_iff_eq]
  rfl

/-- **C39.** `equals` is reflexive, -/
theorem C39_reflexive (a : Node) (h : a.Dicts) : a.equals a = true :=
  (equals_iff a a).mpr ⟨rfl, pyEq_refl _ (node_proper a h)⟩
/-- symmetric, -/
theorem C39_symmetric (a b : Node) (ha : a.Dicts) (hb : b.Dicts) (h : a.equals b = true) : b.equals a = true := by
  rw [equals_iff] at h ⊢
  exact ⟨h.1.symm, pyEq_symm _ _ (asdict_proper _ (node_proper a ha)) (asdict_proper _ (node_proper b hb)) h.2⟩
/-- and transitive. -/
theorem C39_transitive (a b c : Node) (h : a.equals b = true) (h' : b.equals c = true) : a.equals c = true := by
  rw [equals_iff] at h h' ⊢
  exact ⟨h.1.trans h'.1, pyEq_trans _ _ _ h.2 h'.2⟩

/-- **C39 (structure), partial.** Among trees that have the same classes, keys of dicts and decimal exponents in the
same places (`Obj.shape`), `equals` holds exactly for identical ones.  Without that it does not: see below. -/
theorem C39_structure_partial (a b : Node) (ha : a.Dicts) (hb : b.Dicts) (hs : a.obj.shape = b.obj.shape) :
    a.equals b = true ↔ a.obj = b.obj := by
  constructor
  · intro h
    exact shape_eq _ _ hs (node_proper b hb) ((equals_iff a b).mp h).2
  · intro h
    rw [equals_iff, h]
    exact ⟨rfl, pyEq_refl _ (node_proper b hb)⟩
/-- Different trees are different objects. -/
theorem C39_expression_objects (a b : Expr) : a.obj = b.obj ↔ a = b := ⟨inj_Expr a b, fun h => h ▸ rfl⟩
theorem C39_query_objects (a b : Query) : a.obj = b.obj ↔ a = b := ⟨inj_Query a b, fun h => h ▸ rfl⟩
theorem C39_relation_objects (a b : Rel) : a.obj = b.obj ↔ a = b := ⟨inj_Rel a b, fun h => h ▸ rfl⟩
/-- Identical trees are equal, nodes of different classes are not. -/
theorem C39_class (a b : Node) (h : clsOf a.obj ≠ clsOf b.obj) : a.equals b = false := by
  cases he : a.equals b with
  | false => rfl
  | true => exact absurd ((equals_iff a b).mp he).1 h

/-! ## Cases -/

private def c1 (n : Str) : Expr := .field n none .unknown

/-- Two comparisons that differ in a constant have the same shape, and are not equal. -/
theorem C39_structure_reached :
    (Node.expr (.bin .eq (c1 (c% "a")) (.lit (some (.int 1)) (.simple .integer)))).equals
      (.expr (.bin .eq (c1 (c% "a")) (.lit (some (.int 2)) (.simple .integer)))) = false := by
  have h := C39_structure_partial (.expr (.bin .eq (c1 (c% "a")) (.lit (some (.int 1)) (.simple .integer))))
    (.expr (.bin .eq (c1 (c% "a")) (.lit (some (.int 2)) (.simple .integer)))) ⟨trivial, trivial⟩ ⟨trivial, trivial⟩ rfl
  refine Bool.eq_false_iff.mpr fun he => ?_
  have := inj_Expr _ _ (h.mp he)
  simp at this

/-- Below the top the class of a node is not compared: `a = b AND c` equals `a <> b AND c`, though the texts differ. -/
theorem C39_operator_false :
    (Node.expr (.bin .and (.bin .eq (c1 (c% "a")) (c1 (c% "b"))) (c1 (c% "c")))).equals
      (.expr (.bin .and (.bin .ne (c1 (c% "a")) (c1 (c% "b"))) (c1 (c% "c")))) = true ∧
    (Expr.bin .and (.bin .eq (c1 (c% "a")) (c1 (c% "b"))) (c1 (c% "c"))).sql {} = .ok (c% "\"a\" = \"b\" AND \"c\"") ∧
    (Expr.bin .and (.bin .ne (c1 (c% "a")) (c1 (c% "b"))) (c1 (c% "c"))).sql {} = .ok (c% "\"a\" <> \"b\" AND \"c\"") :=
  ⟨by decide +kernel, rfl, rfl⟩
/-- Not even the name of a function, or a sign. -/
theorem C39_function_false :
    (Node.expr (.array [.func .lower [c1 (c% "a")]])).equals (.expr (.array [.func .ltrim [c1 (c% "a")]])) = true ∧
    (Node.expr (.array [.un .pos (c1 (c% "a"))])).equals (.expr (.array [.un .neg (c1 (c% "a"))])) = true :=
  ⟨by decide +kernel, by decide +kernel⟩
/-- UNION and EXCEPT, inside another query. -/
theorem C39_set_false (k k' : SetKind) :
    (Node.rel (.lateral (.mk (.set k (.mk (.table { name := c% "t" }) none none [] []) (.mk (.table { name := c% "t" }) none none [] []) true) none none [] []))).equals
      (.rel (.lateral (.mk (.set k' (.mk (.table { name := c% "t" }) none none [] []) (.mk (.table { name := c% "t" }) none none [] []) true) none none [] []))) = true := by
  cases k <;> cases k' <;> decide +kernel
/-- The order of the named windows does not count. -/
theorem C39_order_false :
    let w (n : Str) : Str × Win := (n, .mk none [] [] .range (.unbounded .preceding) .current)
    let q (ws : List (Str × Win)) : Query := .mk (.select [c1 (c% "a")] none none none none false ws) none none [] []
    (Node.query (q [w (c% "v"), w (c% "w")])).equals (.query (q [w (c% "w"), w (c% "v")])) = true ∧
    q [w (c% "v"), w (c% "w")] ≠ q [w (c% "w"), w (c% "v")] :=
  ⟨by decide +kernel, by simp⟩
/-- Constants are compared by value: a decimal with more zeros, and the number one instead of TRUE. -/
theorem C39_value_false :
    (Node.expr (.lit (some (.dec ⟨false, 10, -1⟩)) (.decimal 2 1))).equals (.expr (.lit (some (.dec ⟨false, 100, -2⟩)) (.decimal 2 1))) = true ∧
    (Node.expr (.lit (some (.bool true)) .boolean)).equals (.expr (.lit (some (.int 1)) .boolean)) = true :=
  ⟨by decide +kernel, by decide +kernel⟩

end Props
end Treeno
