import Verif.Visit
import Verif.Spec.Children
import Verif.Lemmas.ObjEqs
import Verif.Lemmas.ObjInj
import Verif.Lemmas.CheckEqs
/-! What an attribute holds, what a `visit` method hands out. -/
namespace Treeno
open Spec

theorem isNode_inst {c as} (h : (c == .dataType || c == .schema || c == .schemaField) = false) : isNode (.inst c as) = true := by
  show (!(c == .dataType || c == .schema || c == .schemaField)) = true
  rw [h]; rfl
theorem node_query (q : Query) : isNode q.obj = true := by
  obtain ⟨b, _, _, _, _⟩ := q
  cases b <;> rfl
theorem node_expr (e : Expr) : isNode e.obj = true := by
  cases e
  case query q => exact node_query q
  all_goals rfl
theorem node_named (n : Named) : isNode n.obj = true := by cases n; rfl
theorem node_rel (r : Rel) : isNode r.obj = true := by
  cases r
  case query q => exact node_query q
  case aliased n => exact node_named n
  all_goals rfl
theorem node_ord (o : Ord) : isNode o.obj = true := by cases o; rfl
theorem node_bound (o : Bound) : isNode o.obj = true := by cases o <;> rfl
theorem node_win (o : Win) : isNode o.obj = true := by cases o; rfl
theorem node_grp (o : Grp) : isNode o.obj = true := by cases o <;> rfl
theorem node_groupBy (o : GroupBy) : isNode o.obj = true := by cases o; rfl
theorem node_crit (o : Crit) : isNode o.obj = true := by cases o <;> rfl

theorem held_node {o : Obj} (h : isNode o = true) : held o = [o] := by
  cases o
  case inst c as => show (if isNode (.inst c as) = true then _ else _) = _; rw [if_pos h]
  all_goals exact Bool.noConfusion (show false = true from h)
theorem ifSet_node {o : Obj} (h : isNode o = true) : o.ifSet = [o] := by
  cases o
  case inst c as => rfl
  all_goals exact Bool.noConfusion (show false = true from h)
theorem truthy_node {o : Obj} (h : isNode o = true) : o.truthy = true := by
  cases o
  case inst c as => rfl
  all_goals exact Bool.noConfusion (show false = true from h)

theorem held_list {l : List Obj} (h : ∀ o ∈ l, isNode o = true) : held (.list l) = l := List.filter_eq_self.mpr h
theorem held_optList {l : List Obj} (h : ∀ o ∈ l, isNode o = true) : held (.optList l) = l := by
  cases l
  · rfl
  · exact held_list h
theorem items_optList (l : List Obj) : (Obj.optList l).itemsIfSet = .ok l := by cases l <;> rfl

theorem objs_map : ∀ l, Expr.objs l = l.map Expr.obj
  | [] => rfl
  | e :: r => by rw [Expr_objs_cons, objs_map r]; rfl
theorem sets_map : ∀ l, Expr.objSets l = l.map fun vs => (Node.grp (.set vs)).obj
  | [] => rfl
  | e :: r => by rw [Expr_objSets_cons, sets_map r]; rfl
theorem whens_map : ∀ l, Expr.objWhens l = l.map fun cv => (Node.when cv.1 cv.2).obj
  | [] => rfl
  | (c, v) :: r => by rw [Expr_objWhens_cons, whens_map r]; rfl
theorem ords_map : ∀ l, Ord.objs l = l.map Ord.obj
  | [] => rfl
  | e :: r => by rw [Ord_objs_cons, ords_map r]; rfl
theorem grps_map : ∀ l, Grp.objs l = l.map Grp.obj
  | [] => rfl
  | e :: r => by rw [Grp_objs_cons, grps_map r]; rfl
theorem nameds_map : ∀ l, Named.objs l = l.map Named.obj
  | [] => rfl
  | e :: r => by rw [Named_objs_cons, nameds_map r]; rfl
theorem wins_map : ∀ l, Win.objNamed l = l.map fun nw => (nw.1, nw.2.obj)
  | [] => rfl
  | (n, w) :: r => by rw [Win_objNamed_cons, wins_map r]; rfl

theorem all_map {α} {f : α → Obj} (h : ∀ a, isNode (f a) = true) (l : List α) : ∀ o ∈ l.map f, isNode o = true := by
  intro o ho
  obtain ⟨a, _, rfl⟩ := List.mem_map.mp ho
  exact h a

theorem node_objs (l) : ∀ o ∈ Expr.objs l, isNode o = true := objs_map l ▸ all_map node_expr l
theorem node_sets (l) : ∀ o ∈ Expr.objSets l, isNode o = true := sets_map l ▸ all_map (fun vs => rfl) l
theorem node_whens (l) : ∀ o ∈ Expr.objWhens l, isNode o = true := whens_map l ▸ all_map (fun vs => rfl) l
theorem node_ords (l) : ∀ o ∈ Ord.objs l, isNode o = true := ords_map l ▸ all_map node_ord l
theorem node_grps (l) : ∀ o ∈ Grp.objs l, isNode o = true := grps_map l ▸ all_map node_grp l
theorem node_nameds (l) : ∀ o ∈ Named.objs l, isNode o = true := nameds_map l ▸ all_map node_named l

/-! ## Attributes without nodes -/

theorem held_type (t : Ty) : held t.obj = [] := by cases t <;> rfl
theorem held_typeAttr (r : Except Err Ty) : held (typeAttr r).2 = [] := by
  cases r
  · rfl
  · exact held_type _
theorem held_none : held .none = [] := rfl
theorem held_scalar (s) : held (.scalar s) = [] := rfl
theorem held_enum (c n) : held (.enum c n) = [] := rfl
theorem held_optStr : ∀ s, held (.optStr s) = []
  | none => rfl
  | some _ => rfl
theorem held_optInt : ∀ s, held (.optInt s) = []
  | none => rfl
  | some _ => rfl
theorem held_optScalar : ∀ s, held (.optScalar s) = []
  | none => rfl
  | some _ => rfl
theorem held_optForm : ∀ s, held (.optForm s) = []
  | none => rfl
  | some f => by cases f <;> rfl
theorem held_strs : ∀ l : List Str, held (.list (l.map .str)) = []
  | [] => rfl
  | _ :: r => held_strs r
theorem held_names : ∀ l : List Str, held (.names l) = []
  | [] => rfl
  | _ :: r => held_strs r
theorem held_enum2 (c y n b) : held (.enum2 c y n b) = [] := rfl
theorem held_quantifier (b) : held (quantifier b) = [] := rfl
theorem held_joinType (t : JoinType) : held t.obj = [] := by cases t <;> rfl
theorem held_sampleType (t : SampleType) : held t.obj = [] := by cases t <;> rfl
theorem held_frameType (t : FrameType) : held t.obj = [] := by cases t <;> rfl
theorem held_boundType (t : BoundType) : held t.obj = [] := by cases t <;> rfl

/-! ## Attributes with nodes -/

theorem held_expr (e : Expr) : held e.obj = [e.obj] := held_node (node_expr e)
theorem held_query (e : Query) : held e.obj = [e.obj] := held_node (node_query e)
theorem held_rel (e : Rel) : held e.obj = [e.obj] := held_node (node_rel e)
theorem held_table (t : TableRef) : held t.obj = [t.obj] := rfl
theorem held_bound (e : Bound) : held e.obj = [e.obj] := held_node (node_bound e)
theorem held_config (as) : held (.inst .joinConfig as) = [.inst .joinConfig as] := rfl
theorem held_objs (l) : held (.list (Expr.objs l)) = Expr.objs l := held_list (node_objs l)
theorem held_optObjs (l) : held (.optList (Expr.objs l)) = Expr.objs l := held_optList (node_objs l)
theorem held_sets (l) : held (.list (Expr.objSets l)) = Expr.objSets l := held_list (node_sets l)
theorem held_whens (l) : held (.list (Expr.objWhens l)) = Expr.objWhens l := held_list (node_whens l)
theorem held_ords (l) : held (.optList (Ord.objs l)) = Ord.objs l := held_optList (node_ords l)
theorem held_grps (l) : held (.list (Grp.objs l)) = Grp.objs l := held_list (node_grps l)
theorem held_with (l) : held (withObj (Named.objs l)) = Named.objs l := by
  cases l with
  | nil => rfl
  | cons a r => exact held_list (node_nameds (a :: r))
theorem held_vars (l : List Str) : held (.list (l.map varObj)) = l.map varObj := held_list (all_map (fun _ => rfl) l)
theorem held_windows (l) : held (windowObj (Win.objNamed l)) = l.map fun nw => nw.2.obj := by
  cases l with
  | nil => rfl
  | cons a r =>
    have e : held (windowObj (Win.objNamed (a :: r))) = ((Win.objNamed (a :: r)).map (·.2)).filter isNode := by
      cases a; rfl
    rw [e, wins_map, List.map_map]
    exact List.filter_eq_self.mpr (all_map (fun nw : Str × Win => node_win nw.2) (a :: r))
theorem values_windows (l) : (windowObj (Win.objNamed l)).valuesIfSet = .ok (l.map fun nw => nw.2.obj) := by
  cases l with
  | nil => rfl
  | cons a r =>
    have e : (windowObj (Win.objNamed (a :: r))).valuesIfSet = .ok ((Win.objNamed (a :: r)).map (·.2)) := by
      cases a; rfl
    rw [e, wins_map, List.map_map]
    rfl

/-- An optional child. -/
def optKid {α} (f : α → Obj) (x : Option α) : List Obj := (x.map f).toList

theorem held_opt : ∀ x, held (Expr.objOpt x) = optKid Expr.obj x
  | none => rfl
  | some e => held_expr e
theorem ifSet_none : Obj.none.ifSet = [] := rfl
theorem ifSet_opt : ∀ x, (Expr.objOpt x).ifSet = optKid Expr.obj x
  | none => rfl
  | some e => ifSet_node (node_expr e)
theorem held_else : ∀ x, held (Expr.objElse x) = optKid (fun e => (Node.else_ e).obj) x
  | none => rfl
  | some _ => rfl
theorem ifSet_else : ∀ x, (Expr.objElse x).ifSet = optKid (fun e => (Node.else_ e).obj) x
  | none => rfl
  | some _ => rfl
theorem held_filler : ∀ x, held (fillerObj x) = optKid (fun fc => (Node.filler fc.1 fc.2).obj) x
  | none => rfl
  | some _ => rfl
theorem ifSet_filler : ∀ x, (fillerObj x).ifSet = optKid (fun fc => (Node.filler fc.1 fc.2).obj) x
  | none => rfl
  | some _ => rfl
theorem held_winOpt : ∀ x, held (Win.objOpt x) = optKid Win.obj x
  | none => rfl
  | some e => held_node (node_win e)
theorem held_relOpt : ∀ x, held (Rel.objOpt x) = optKid Rel.obj x
  | none => rfl
  | some e => held_node (node_rel e)
theorem ifSet_relOpt : ∀ x, (Rel.objOpt x).ifSet = optKid Rel.obj x
  | none => rfl
  | some e => ifSet_node (node_rel e)
theorem held_groupByOpt : ∀ x, held (GroupBy.objOpt x) = optKid GroupBy.obj x
  | none => rfl
  | some e => held_node (node_groupBy e)
theorem ifSet_groupByOpt : ∀ x, (GroupBy.objOpt x).ifSet = optKid GroupBy.obj x
  | none => rfl
  | some e => ifSet_node (node_groupBy e)
theorem held_critOpt : ∀ x, held (Crit.objOpt x) = optKid Crit.obj x
  | none => rfl
  | some e => held_node (node_crit e)
theorem ifSet_bound (b : Bound) : b.obj.ifSet = [b.obj] := ifSet_node (node_bound b)
theorem ifSet_expr (b : Expr) : b.obj.ifSet = [b.obj] := ifSet_node (node_expr b)
theorem ifValue_optStr : ∀ s, (Obj.optStr s).ifValue = []
  | none => rfl
  | some _ => rfl
theorem value_expr (e : Expr) : e.obj.isValue = true := by
  cases e
  case query q => obtain ⟨b, _, _, _, _⟩ := q; cases b <;> rfl
  all_goals rfl
theorem ifValue_expr (e : Expr) : e.obj.ifValue = [e.obj] := by
  unfold Obj.ifValue
  rw [if_pos (value_expr e)]

theorem children_cons (c k v as) : children (.inst c ((k, v) :: as)) = held v ++ children (.inst c as) := rfl
theorem children_nil (c) : children (.inst c []) = [] := rfl
theorem children_type (c r as) : children (.inst c (typeAttr r :: as)) = children (.inst c as) := by
  show held (typeAttr r).2 ++ children (.inst c as) = _
  rw [held_typeAttr]; rfl

/-- The children of an instance with given attributes. -/
macro "kids" : tactic => `(tactic| simp only [children_cons, children_nil, children_type, held_type, held_none, held_scalar,
  held_enum, held_optStr, held_optInt, held_optScalar, held_optForm, held_strs, held_names, held_enum2, held_quantifier,
  held_joinType, held_sampleType, held_frameType, held_boundType, held_expr, held_query, held_rel, held_table, held_bound,
  held_config, held_objs, held_optObjs, held_sets, held_whens, held_ords, held_grps, held_with, held_vars, held_windows,
  held_opt, held_else, held_filler, held_winOpt, held_relOpt, held_groupByOpt, held_critOpt, ifSet_opt, ifSet_else,
  ifSet_none, ifSet_filler, ifSet_relOpt, ifSet_groupByOpt, ifSet_bound, ifSet_expr, ifValue_optStr, ifValue_expr,
  List.nil_append, List.append_nil, List.cons_append])

end Treeno
